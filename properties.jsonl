{"id": "C01", "title": "1-D quadrature is exact on affine integrands, linear and monotone", "statement": "integrate_1d(f,a,b,n) returns the exact integral whenever f is affine, is linear in f, and a pointwise larger integrand never gives a smaller result when a<=b.", "quantifier": "all functions f, all real limits a, b, all numbers of points n>=1", "why_tests_cant": "A test evaluates finitely many integrands; the claim ranges over all functions and all limits and point counts.", "anchors": ["src/math/mod.rs:integrate_1d", "src/math/mod.rs:integrate_1d_grid"]}
{"id": "C02", "title": "1-D quadrature converges with the midpoint-rule error bound", "statement": "For every twice-differentiable f with |f''|<=M on [a,b], |integrate_1d(f,a,b,n) - integral of f over [a,b]| <= M (b-a)^3/(24 n^2); hence the result tends to the integral as n grows.", "quantifier": "all C2 integrands, all intervals, all n>=1", "why_tests_cant": "An error bound for every integrand and every point count cannot be sampled.", "anchors": ["src/math/mod.rs:integrate_1d", "src/math/mod.rs:integrate_1d_grid"]}
{"id": "C03", "title": "2-D and symmetric quadratures agree with iterated 1-D quadrature", "statement": "integrate_2d over a rectangle equals integrating by integrate_1d first in one variable and then in the other, in either order; the symmetric variant equals integrate_2d over a square with a shared grid; a product integrand factorises into the product of two 1-D results.", "quantifier": "all integrands of two variables, all rectangles, all point counts", "why_tests_cant": "Needs to hold for every function of two variables and every grid.", "anchors": ["src/math/mod.rs:integrate_2d", "src/math/mod.rs:integrate_2d_symmetric", "src/math/mod.rs:integrate_2d_symmetric_grid"]}
{"id": "C04", "title": "Newton-Raphson inversion: what is returned", "statement": "inverse_newton_raphson(y,f,f',guess,tol,maxiters) always terminates and returns the k-th Newton iterate of f(x)=y from guess for some k<=maxiters; if it stopped before maxiters, the iterate before the last one has relative residual |(y-f(x))/y| at most tol. A guess that is already an exact root is returned unchanged; for affine f one step gives the exact root.", "quantifier": "all functions, guesses, tolerances and iteration limits", "why_tests_cant": "Iteration counts and residuals over all functions and guesses form an unbounded space.", "anchors": ["src/math/mod.rs:inverse_newton_raphson"]}
{"id": "C05", "title": "Newton-Raphson inversion converges monotonically for concave increasing functions", "statement": "If f is strictly increasing and concave with exact derivative, and the guess is not above the solution, then every iterate stays at or below the solution and iterates never decrease; the returned value lies between guess and solution.", "quantifier": "all concave increasing functions and all admissible guesses and iteration limits", "why_tests_cant": "Invariants of an iteration for all functions and all step counts.", "anchors": ["src/math/mod.rs:inverse_newton_raphson"]}
{"id": "C06", "title": "Powered Newton variant: damping and failure at an exact root", "statement": "inverse_newton_raphson_powered with power p performs, at every point that is not already an exact root, the plain Newton step divided by p (damped Newton); started exactly at a root with p>=2 the first step is 0/0 and the result is undefined.", "quantifier": "all functions, guesses off the root, all powers p", "why_tests_cant": "The damping identity is universal over functions; the failure needs the exact root, which sampling essentially never hits.", "anchors": ["src/math/mod.rs:inverse_newton_raphson_powered"]}
{"id": "C07", "title": "Inverse Langevin: the returned force reproduces the requested extension", "statement": "For every y strictly between 0 and 1, inverse_langevin(y) is a positive number x whose Langevin value satisfies |L(x) - y| <= 1e-6 y: the Newton iteration always stops within its 100 steps and its result reproduces the requested extension to the stated tolerance. For y <= 1e-3 the result is 3y. For negative y the function still returns 3y, which is not the inverse for y <= -1/3. At y = 1 the starting guess divides by zero and the result is undefined.", "quantifier": "all real y < 1, and y = 1", "why_tests_cant": "Ranges over a continuum of arguments and the data-dependent iteration count.", "anchors": ["src/math/mod.rs:inverse_langevin", "src/math/mod.rs:langevin"]}
{"id": "C08", "title": "Lambert W: fixed points and iteration count", "statement": "lambert_w(0)=0; any exact solution of w e^w = x with w different from -1 is a fixed point of the Halley update used, and conversely a fixed point where the update is defined is an exact solution; the number of updates is at least four for every x and exactly four for x at or below 1e12.", "quantifier": "all real x for which the formula is defined", "why_tests_cant": "Ranges over all arguments.", "anchors": ["src/math/mod.rs:lambert_w"]}
{"id": "C09", "title": "Modified Bessel functions: parity, positivity and range of validity", "statement": "bessel_i(nu,x) for nu>=2 is -1. For |x|<7.75, I0 is even, I1 is odd, I0(x)>=1, and I1 has the sign of x. For x<-7.75 the code keeps using the small-argument polynomial, so parity breaks there.", "quantifier": "all real x and all orders", "why_tests_cant": "Parity and sign for every real argument; the failure sits outside the tested range.", "anchors": ["src/math/mod.rs:bessel_i", "src/math/mod.rs:bessel_i0", "src/math/mod.rs:bessel_i1"]}
{"id": "C10", "title": "Error function: accuracy, identities, symmetry and the negative-argument failure", "statement": "erf(x)+erfc(x)=1 for every x. For every x from -26.7 up, erf(x) is the error function to within 3e-12, erfc(x) is the complement of the error function to within five parts in 1e13 of its own value however small that is (three parts in 1e16 from x = 50 on), and erfcx(x) is the scaled complement to the same relative accuracy. erf(-x)=-erf(x) exactly for |x|<=6.1. For x>=0, 0 < erfc(x) <= exp(-x^2). For every x below -26.7 the code returns a value between 0.9 and 1 although the error function is close to -1.", "quantifier": "all real x", "why_tests_cant": "Identities over all reals; the failure region is far out of any sampled interval.", "anchors": ["src/math/mod.rs:erf", "src/math/mod.rs:erfc", "src/math/mod.rs:erfcx", "src/math/mod.rs:erfcx_helper"]}
{"id": "C11", "title": "Ideal chain isometric ensemble is thermodynamically consistent", "statement": "The force is the derivative of the Helmholtz free energy in the end-to-end length; nondimensional and dimensional versions agree through kT and the link length; per-link values times the number of links give the totals.", "quantifier": "all link counts >=1, positive link lengths, hinge masses, temperatures, positive end-to-end lengths", "why_tests_cant": "Derivative identities over a continuum of parameters; tests compare finite differences at random points with a tolerance.", "anchors": ["src/physics/single_chain/ideal/thermodynamics/isometric/mod.rs:IDEAL", "src/physics/single_chain/ideal/thermodynamics/isometric/mod.rs:force", "src/physics/single_chain/ideal/thermodynamics/isometric/mod.rs:helmholtz_free_energy"]}
{"id": "C12", "title": "Ideal chain equilibrium distribution is a normalised probability density", "statement": "The equilibrium distribution is positive, spherically integrates to exactly 1 over all of space, the radial distribution is 4 pi r^2 times the density, and dimensional and nondimensional versions are related by the contour length.", "quantifier": "all link counts >=1 and positive link lengths", "why_tests_cant": "An improper integral for every parameter value.", "anchors": ["src/physics/single_chain/ideal/thermodynamics/isometric/mod.rs:equilibrium_distribution", "src/physics/single_chain/ideal/thermodynamics/isometric/mod.rs:equilibrium_radial_distribution"]}
{"id": "C13", "title": "Ideal chain isotensional ensemble is consistent and inverse to the isometric one", "statement": "The end-to-end length is minus the derivative of the Gibbs free energy in force; force(end_to_end_length(f))=f and conversely.", "quantifier": "all forces, temperatures and positive parameters", "why_tests_cant": "Universal derivative and inverse identities.", "anchors": ["src/physics/single_chain/ideal/thermodynamics/isotensional/mod.rs"]}
{"id": "C14", "title": "FJC isotensional extension is the Langevin function: odd, bounded, strictly increasing", "statement": "The nondimensional end-to-end length per link is minus the derivative of the nondimensional Gibbs energy per link; it lies strictly between 0 and 1 for positive force, is odd, strictly increasing, approaches 1 at large force and is below eta/3.", "quantifier": "all positive nondimensional forces", "why_tests_cant": "Monotonicity, bounds and limits over the whole half-line.", "anchors": ["src/physics/single_chain/fjc/thermodynamics/isotensional/mod.rs:nondimensional_end_to_end_length_per_link", "src/physics/single_chain/fjc/thermodynamics/isotensional/mod.rs:nondimensional_gibbs_free_energy_per_link"]}
{"id": "C15", "title": "Dimensional quantities are kT (or length) times the nondimensional ones, per-link times N is the total", "statement": "In every single-chain model and ensemble: energies equal kT times their nondimensional counterparts, forces equal (kT/l) times, lengths equal l times; each total is N times the per-link value.", "quantifier": "all models, ensembles, parameters, temperatures and arguments", "why_tests_cant": "Relations between API functions for every input; a swapped factor could hide at tested points.", "anchors": ["src/physics/single_chain/fjc/thermodynamics/isotensional/mod.rs", "src/physics/single_chain/efjc/thermodynamics/isotensional/mod.rs", "src/physics/single_chain/swfjc/thermodynamics/isotensional/mod.rs", "src/physics/single_chain/ufjc/morse/thermodynamics/isotensional/mod.rs", "src/physics/single_chain/wlc/thermodynamics/isotensional/mod.rs"]}
{"id": "C16", "title": "Relative energies vanish at the reference state and do not depend on the hinge mass", "statement": "Each relative Gibbs/Helmholtz energy is the energy minus its value at the near-zero reference, so it is zero at the reference; it is independent of the hinge mass.", "quantifier": "all models, ensembles and parameters", "why_tests_cant": "Universally quantified over parameters, arguments and pairs of hinge masses.", "anchors": ["src/physics/single_chain/fjc/thermodynamics/isotensional/mod.rs:relative_gibbs_free_energy", "src/physics/single_chain/fjc/thermodynamics/isometric/legendre/mod.rs:nondimensional_relative_helmholtz_free_energy_per_link"]}
{"id": "C17", "title": "FJC isometric force is the derivative of the Helmholtz energy (Treloar sums)", "statement": "For every number of links in the supported range and every extension strictly between 0 and 1 not at a breakpoint, the nondimensional force is (1/N) d psi/d gamma, where psi is the nondimensional Helmholtz energy.", "quantifier": "all N with 4<=N, all gamma in (0,1) away from the breakpoints", "why_tests_cant": "The sums change form with N and gamma; the identity must hold for each.", "anchors": ["src/physics/single_chain/fjc/thermodynamics/mod.rs:treloar_sums", "src/physics/single_chain/fjc/thermodynamics/isometric/mod.rs:nondimensional_force", "src/physics/single_chain/fjc/thermodynamics/isometric/mod.rs:nondimensional_helmholtz_free_energy"]}
{"id": "C18", "title": "Treloar evaluation fails exactly outside its integer range", "statement": "The exact FJC isometric functions fail (integer underflow or overflow) for N<2, for extensions >=1, for N>=27 in the prefactor and N>=35 in the factorials, and produce a value for all other N and extension in range.", "quantifier": "all N and all extensions", "why_tests_cant": "Boundary behaviour over all integer sizes.", "anchors": ["src/physics/single_chain/fjc/thermodynamics/mod.rs:treloar_sums", "src/physics/single_chain/fjc/thermodynamics/mod.rs:treloar_sum_0_with_prefactor"]}
{"id": "C19", "title": "FJC Legendre approximations are exact Legendre transforms", "statement": "In the isotensional Legendre approximation the Helmholtz energy equals the Gibbs energy plus force times length; in the isometric one the Gibbs energy equals Helmholtz minus force times length.", "quantifier": "all forces/extensions and positive parameters", "why_tests_cant": "Identity over a continuum.", "anchors": ["src/physics/single_chain/fjc/thermodynamics/isotensional/legendre/mod.rs", "src/physics/single_chain/fjc/thermodynamics/isometric/legendre/mod.rs"]}
{"id": "C20", "title": "FJC modified canonical ensemble: force and extension derive from the discretised partition function", "statement": "The numerically integrated force in the modified canonical ensemble is exactly minus the derivative of the log of the discretised partition function used for the Helmholtz/Gibbs energies of that ensemble; discretisation does not break consistency.", "quantifier": "all potential distances, stiffnesses, N and positive parameters", "why_tests_cant": "Exact derivative identity for each parameter.", "anchors": ["src/physics/single_chain/fjc/thermodynamics/modified_canonical/mod.rs"]}
{"id": "C21", "title": "FJC modified canonical asymptotics are consistent derivatives", "statement": "Weak-potential and strong-potential asymptotic forces/extensions are the derivatives of the corresponding asymptotic energies.", "quantifier": "all admissible parameters", "why_tests_cant": "Derivative identities over a continuum.", "anchors": ["src/physics/single_chain/fjc/thermodynamics/modified_canonical/asymptotic/weak_potential/mod.rs", "src/physics/single_chain/fjc/thermodynamics/modified_canonical/asymptotic/strong_potential/mod.rs"]}
{"id": "C22", "title": "EFJC asymptotic isotensional models are thermodynamically consistent", "statement": "For the asymptotic, reduced-asymptotic and alternative-asymptotic EFJC, the extension is minus the derivative of the Gibbs energy in the force.", "quantifier": "all stiffnesses >0 and forces >0", "why_tests_cant": "Derivative identities over all stiffnesses and forces.", "anchors": ["src/physics/single_chain/efjc/thermodynamics/isotensional/asymptotic/mod.rs", "src/physics/single_chain/efjc/thermodynamics/isotensional/asymptotic/reduced/mod.rs", "src/physics/single_chain/efjc/thermodynamics/isotensional/asymptotic/alternative/mod.rs"]}
{"id": "C23", "title": "EFJC reduced model: monotone, FJC limit and excess extension", "statement": "The reduced EFJC extension is strictly increasing in force, exceeds the FJC extension by exactly eta/kappa, and tends to the FJC extension as the stiffness grows.", "quantifier": "all positive stiffnesses and forces", "why_tests_cant": "Monotonicity and limits.", "anchors": ["src/physics/single_chain/efjc/thermodynamics/isotensional/asymptotic/reduced/mod.rs"]}
{"id": "C24", "title": "Exact extensible chain: the extension returned is not minus the slope of the Gibbs energy", "statement": "For every number of links, link length and link stiffness, the extension returned by the isotensional extensible chain (not the asymptotic variants) is not minus the force-derivative of its Gibbs energy: as the force tends to zero the extension grows without bound while the energy has a limit, at every temperature where the nondimensional stiffness is below 74.42 (except finitely many values at the ends of the error-function table arms).", "quantifier": "all numbers of links, link lengths and stiffnesses; all temperatures with nondimensional stiffness below 74.42 off the table grid", "why_tests_cant": "The deviation is small in the tested range and hidden by tolerances.", "anchors": ["src/physics/single_chain/efjc/thermodynamics/isotensional/mod.rs:nondimensional_end_to_end_length_per_link", "src/physics/single_chain/efjc/thermodynamics/isotensional/mod.rs:nondimensional_gibbs_free_energy_per_link"]}
{"id": "C25", "title": "Legendre-transform solvers pass the true derivative to Newton", "statement": "In the isometric Legendre approximations of the extensible (all asymptotic approaches), square-well and Morse chains, which invert the extension-force relation numerically, the derivative passed to the solver is the derivative of the function passed to the solver. (Lennard-Jones and log-squared chains pass another slope: C57.)", "quantifier": "all positive stiffnesses and forces where the relation is differentiable", "why_tests_cant": "A wrong derivative still converges at tested points but is wrong as a function.", "anchors": ["src/physics/single_chain/efjc/thermodynamics/isometric/asymptotic/reduced/legendre/mod.rs", "src/physics/single_chain/efjc/thermodynamics/isometric/asymptotic/alternative/legendre/mod.rs", "src/physics/single_chain/efjc/thermodynamics/isometric/asymptotic/legendre/mod.rs", "src/physics/single_chain/ufjc/morse/thermodynamics/isometric/asymptotic/reduced/legendre/mod.rs"]}
{"id": "C26", "title": "The force returned for an extension gives the extension back", "statement": "Under the Legendre approximation, the force returned for an extension, applied to the matching isotensional model, reproduces the extension to one part in a million: for the freely jointed chain at every extension strictly between zero and full extension, and for extensible links (reduced asymptotic approach) at every positive extension other than full extension, whatever the stiffness; for extensible links under the alternative and the full asymptotic approach it reproduces the extension to three parts in a million, at extensions beyond full extension and at those below the extension a freely jointed chain has under a nondimensional force equal to the nondimensional link stiffness. For Morse links (full and reduced asymptotic approaches) whose nondimensional stiffness is between ten and a million and at least the nondimensional bond energy, it reproduces the extension to three parts in a million, at extensions up to the one at 95% of the breaking force, except those which a freely jointed chain has under forces within 5% below the breaking force. For log-squared links (full and reduced asymptotic approaches) of nondimensional stiffness between twenty and a million it reproduces the extension to one part in a million, at the same extensions relative to their largest force. For Lennard-Jones links (full and reduced asymptotic approaches) of nondimensional stiffness between forty and a million it reproduces the extension to two parts in a million, at extensions between a millionth and the one a freely jointed chain has under a force of 1/46 of the stiffness, somewhat more than half of the largest force. At exactly full extension the extensible-link models return an undefined number although a solution exists. For square-well chains whose wells are at most nine tenths of a link length wide it reproduces the extension to two parts in a million, at every extension strictly between zero and the largest one. For square-well chains with wells at least eight link lengths wide it does not hold: between 90% and 91.5% of the largest extension the returned force misses the extension by at least a twentieth of the largest extension.", "quantifier": "all extensions, stiffnesses, link counts, link lengths and temperatures", "why_tests_cant": "Convergence of an iteration from a computed guess, for every input.", "anchors": ["src/math/mod.rs:inverse_newton_raphson", "src/physics/single_chain/fjc/thermodynamics/isometric/legendre/mod.rs", "src/physics/single_chain/efjc/thermodynamics/isometric/asymptotic/reduced/legendre/mod.rs", "src/physics/single_chain/efjc/thermodynamics/isotensional/asymptotic/reduced/mod.rs", "src/physics/single_chain/efjc/thermodynamics/isometric/asymptotic/alternative/legendre/mod.rs:nondimensional_force", "src/physics/single_chain/efjc/thermodynamics/isometric/asymptotic/legendre/mod.rs:nondimensional_force", "src/physics/single_chain/ufjc/morse/thermodynamics/isometric/asymptotic/legendre/mod.rs:nondimensional_force", "src/physics/single_chain/swfjc/thermodynamics/isometric/legendre/mod.rs:nondimensional_force", "src/physics/single_chain/ufjc/log_squared/thermodynamics/isometric/asymptotic/legendre/mod.rs:nondimensional_force", "src/physics/single_chain/ufjc/lennard_jones/thermodynamics/isometric/asymptotic/legendre/mod.rs:nondimensional_force"]}
{"id": "C27", "title": "SWFJC isotensional model is consistent, bounded and recovers the FJC", "statement": "The extension is minus the derivative of the Gibbs energy; it is below 1+w for well width w; as w tends to 0 it tends to the FJC extension.", "quantifier": "all positive well widths and forces", "why_tests_cant": "Derivative, bound and limit over all parameters.", "anchors": ["src/physics/single_chain/swfjc/thermodynamics/isotensional/mod.rs"]}
{"id": "C28", "title": "SWFJC Legendre relations", "statement": "Legendre transforms hold exactly for the SWFJC isotensional Legendre energies, and the discretised normalisation makes the distribution integrate (by the same quadrature) to one.", "quantifier": "all positive parameters", "why_tests_cant": "Identity over a continuum.", "anchors": ["src/physics/single_chain/swfjc/thermodynamics/isotensional/legendre/mod.rs", "src/physics/single_chain/swfjc/thermodynamics/isometric/legendre/mod.rs"]}
{"id": "C29", "title": "uFJC numerical isotensional extension is the derivative of the numerical Gibbs energy", "statement": "For the Lennard-Jones, log-squared and Morse chains, the extension computed by quadrature is exactly minus the force-derivative of the Gibbs energy computed by the same quadrature.", "quantifier": "all stiffnesses, link energies and forces >0", "why_tests_cant": "Exact equality of a derivative for every parameter.", "anchors": ["src/physics/single_chain/ufjc/lennard_jones/thermodynamics/isotensional/mod.rs", "src/physics/single_chain/ufjc/log_squared/thermodynamics/isotensional/mod.rs", "src/physics/single_chain/ufjc/morse/thermodynamics/isotensional/mod.rs"]}
{"id": "C30", "title": "Morse asymptotic models are consistent up to the maximum force", "statement": "For 0<eta<eta_max the Morse link stretch solves the force balance, is in the increasing branch, and the (reduced) asymptotic extension is minus the derivative of the (reduced) asymptotic Gibbs energy.", "quantifier": "all stiffnesses, energies and forces below the maximum", "why_tests_cant": "Derivative identities on a parameter-dependent interval.", "anchors": ["src/physics/single_chain/ufjc/morse/thermodynamics/isotensional/asymptotic/mod.rs", "src/physics/single_chain/ufjc/morse/thermodynamics/isotensional/asymptotic/reduced/mod.rs"]}
{"id": "C31", "title": "Log-squared and Lennard-Jones asymptotic models are consistent at exact link stretch", "statement": "With the exact Lambert/implicit stretch, the reduced asymptotic extension is minus the derivative of the reduced asymptotic Gibbs energy, and eta_max is the maximum of the link force.", "quantifier": "all stiffnesses and forces below the maximum", "why_tests_cant": "Derivative identities over a continuum.", "anchors": ["src/physics/single_chain/ufjc/log_squared/thermodynamics/isotensional/asymptotic/reduced/mod.rs", "src/physics/single_chain/ufjc/lennard_jones/thermodynamics/isotensional/asymptotic/reduced/mod.rs", "src/physics/single_chain/ufjc/lennard_jones/mod.rs"]}
{"id": "C32", "title": "Maximum forces are the true maxima of the link force laws", "statement": "eta_max used to clamp the isometric solvers is the global maximum of the link force over stretches: kappa/e for log-squared, sqrt(eps kappa/8) for Morse and the inflection value for Lennard-Jones.", "quantifier": "all stiffnesses and energies, all stretches", "why_tests_cant": "A maximum over a continuum.", "anchors": ["src/physics/single_chain/ufjc/log_squared/thermodynamics/isometric/asymptotic/legendre/mod.rs", "src/physics/single_chain/ufjc/morse/thermodynamics/isometric/asymptotic/legendre/mod.rs", "src/physics/single_chain/ufjc/lennard_jones/thermodynamics/isometric/asymptotic/legendre/mod.rs"]}
{"id": "C33", "title": "WLC isometric force is the derivative of the Helmholtz energy up to the Bessel mismatch", "statement": "For every chain and every extension strictly between zero and the contour length Nl, the Helmholtz energy is differentiable in the end-to-end length and its derivative differs from the returned force by at most 13 (p/Nl)^2 kT/(Nl), and by at most 2e-5 kT/(Nl) when p < Nl/8: the only difference is that the order-one Bessel routine is not exactly the derivative of the order-zero one. The end-to-end distribution is positive below the contour length. The isometric Legendre Gibbs energy is the Helmholtz energy minus force times length.", "quantifier": "all numbers of links, link lengths, persistence lengths, temperatures, and extensions in (0,Nl)", "why_tests_cant": "Derivative identity over a continuum.", "anchors": ["src/physics/single_chain/wlc/thermodynamics/isometric/mod.rs"]}
{"id": "C34", "title": "WLC isotensional extension is the derivative of the discretised Gibbs energy", "statement": "When the internal search for the extension succeeds (always for persistence length at most 1/25 of the contour length), the expected length is minus the derivative of the Gibbs energy in the force; the Gibbs energy is minus the logarithm of the discretised transform of the isometric Boltzmann factor; the normalised extension lies in (0,1) and increases with the force.", "quantifier": "all chains, all forces between 0 and 100 (nondimensional) at which the search succeeds", "why_tests_cant": "Exact derivative identity for each input.", "anchors": ["src/physics/single_chain/wlc/thermodynamics/isotensional/mod.rs"]}
{"id": "C35", "title": "WLC search failure is reported, not returned", "statement": "Every expected-length, Gibbs-energy and Legendre Helmholtz-energy method at fixed force panics exactly when its internal search for the extension does not end at an extension in [0,1] (undefined results included; relative energies also need the search at the reference force). When the start of the search already has the force looked for, the search fails.", "quantifier": "all parameters, forces and temperatures", "why_tests_cant": "Needs every run of the solver.", "anchors": ["src/physics/single_chain/wlc/thermodynamics/isotensional/legendre/mod.rs"]}
{"id": "C36", "title": "Radial distributions equal 4 pi r^2 times the density and integrate to one on the solver's grid", "statement": "For every Legendre isometric model the stored normalisation constant makes the sampled radial distribution have total exactly one under the same quadrature used in init, for every parameter set.", "quantifier": "all models, all positive parameters", "why_tests_cant": "Holds for all parameter values; tests integrate one random sample with a tolerance.", "anchors": ["src/physics/single_chain/fjc/thermodynamics/isometric/legendre/mod.rs:FJC", "src/physics/single_chain/efjc/thermodynamics/isometric/asymptotic/legendre/mod.rs:EFJC", "src/physics/single_chain/swfjc/thermodynamics/isometric/legendre/mod.rs:SWFJC"]}
{"id": "C37", "title": "Constructors store the inputs unchanged in every nested submodel", "statement": "Each init keeps number of links, link length, hinge mass and model parameters, with the contour length N*l, and passes them unswapped to all nested models.", "quantifier": "all argument tuples", "why_tests_cant": "A swap is invisible when tested values coincide; must hold for all tuples.", "anchors": ["src/physics/single_chain/fjc/mod.rs", "src/physics/single_chain/efjc/mod.rs", "src/physics/single_chain/swfjc/mod.rs", "src/physics/single_chain/wlc/mod.rs"]}
{"id": "C38", "title": "Methods of the public structs evaluate the free functions at the stored parameters", "statement": "Each method of the public structs returns the free-function formula evaluated at the struct's stored fields.", "quantifier": "all structs, methods and arguments", "why_tests_cant": "Universal over inputs.", "anchors": ["src/physics/single_chain/fjc/thermodynamics/isotensional/mod.rs:FJC", "src/physics/single_chain/efjc/thermodynamics/isotensional/asymptotic/legendre/mod.rs:EFJC"]}
{"id": "C39", "title": "FJC Monte Carlo configurations have unit links and bounded extension", "statement": "Every generated configuration has links of unit length, end-to-end length at most N, whatever the random numbers are.", "quantifier": "all N and all random streams", "why_tests_cant": "All random streams.", "anchors": ["src/physics/single_chain/fjc/thermodynamics/isometric/monte_carlo/mod.rs"]}
{"id": "C40", "title": "FRC Monte Carlo bond angles and extension bound", "statement": "Every generated freely rotating chain has consecutive links at the fixed bond angle; the maximum extension used for binning bounds every configuration for even N but not for odd N, in which case indexing can panic.", "quantifier": "all N, bond angles and random streams", "why_tests_cant": "All random streams and N.", "anchors": ["src/physics/single_chain/frc/thermodynamics/isometric/monte_carlo/mod.rs"]}
{"id": "C41", "title": "EFJC/EFRC Monte Carlo link lengths", "statement": "Each generated link has length |lambda| for the sampled stretch, and configurations beyond the cut-off extension make the run fail rather than be miscounted.", "quantifier": "all random streams", "why_tests_cant": "All random streams.", "anchors": ["src/physics/single_chain/efjc/thermodynamics/isometric/monte_carlo/mod.rs", "src/physics/single_chain/efrc/thermodynamics/isometric/monte_carlo/mod.rs"]}
{"id": "C42", "title": "Monte Carlo histograms conserve samples and normalise", "statement": "Each sample whose extension is below the largest bin edge increments exactly one bin, namely the first whose edge exceeds it; if all samples are below, bin counts sum to the number of samples and the returned radial distribution integrates to exactly one on its bins. A sample lying exactly on (FJC: at or above) the last edge, or an undefined one, is silently dropped.", "quantifier": "all sample counts, numbers of bins and random streams", "why_tests_cant": "All random streams.", "anchors": ["src/physics/single_chain/fjc/thermodynamics/isometric/monte_carlo/mod.rs"]}
{"id": "C43", "title": "Hyperelastic model: equibiaxial/uniaxial duality and invalid-method failure", "statement": "Equibiaxial stress at stretch s equals minus uniaxial stress at 1/s^2; invalid method numbers panic.", "quantifier": "all stretches and chain parameters", "why_tests_cant": "Identity over all stretches and parameters.", "anchors": ["src/constitutive/hyperelastic/buche_silberstein/mod.rs"]}
{"id": "C44", "title": "Damage model depends on history only through the running maximum", "statement": "The stress at step k depends only on the stretches up to step k, and only through the current stretch and the maximum so far; repeating a smaller excursion does not change the response (no healing).", "quantifier": "all stretch histories of any length", "why_tests_cant": "Property of all histories.", "anchors": ["src/constitutive/hyperelastic_damage/buche_silberstein/mod.rs"]}
{"id": "C45", "title": "Damage model rejects stretches below one", "statement": "If any stretch in the history is below 1 the call panics; otherwise it returns one stress per stretch.", "quantifier": "all histories", "why_tests_cant": "Property of all histories.", "anchors": ["src/constitutive/hyperelastic_damage/buche_silberstein/mod.rs"]}
{"id": "C46", "title": "Definedness: evaluation never divides by zero or takes logs of non-positive numbers on the stated domain", "statement": "For positive parameters, every energy, force, length and distribution method of the following models evaluates without a division by zero, a logarithm of a non-positive number, a root of a negative number, an inverse cosine outside [-1,1] or a panic, on the domain stated, and its value is that of the formula over the reals. Ideal chain: every positive force or extension. Freely jointed chain: every positive force; extensions strictly between zero and full extension (2 to 26 links for methods based on the exact sums); the potential-controlled variants at every positive distance (strictly between zero and full extension for the strong-potential one). Extensible chain at fixed force: every positive force for the asymptotic variants, every nondimensional force from 1e-11 up for the exact one; at fixed extension for the reduced asymptotic variant at every positive extension other than exactly full extension. Square-well chain at fixed force: every positive force. Morse, Lennard-Jones and log-squared chains at fixed force: every positive force for the quadratures, every positive force below the maximum force of the link (which must exceed the reference force 1e-6) for the asymptotic variants. Worm-like chain at fixed extension: strictly between zero and full extension. The special functions erf and Bessel I are defined everywhere, Lambert W above -1/e. At exactly zero force the freely jointed chain is undefined. The models which invert a relation numerically are C56.", "quantifier": "all positive parameters and temperatures, all forces/extensions of the stated domain", "why_tests_cant": "Universal over a continuum of inputs; a test only sees the points it samples.", "anchors": ["src/physics/single_chain/fjc/thermodynamics/isotensional/mod.rs", "src/physics/single_chain/ideal/thermodynamics/isometric/mod.rs", "src/physics/single_chain/efjc/thermodynamics/isotensional/asymptotic/reduced/mod.rs", "src/physics/single_chain/wlc/thermodynamics/isometric/mod.rs", "src/physics/single_chain/efjc/thermodynamics/isotensional/mod.rs", "src/physics/single_chain/ufjc/morse/thermodynamics/isotensional/mod.rs"]}
{"id": "C47", "title": "Isotensional Legendre approximations of the extensible and worm-like chains are exact Legendre transforms", "statement": "For the EFJC (exact and every asymptotic approach), Morse, log-squared, Lennard-Jones and worm-like chains, each Helmholtz free energy returned by the isotensional Legendre approximation, dimensional or not, total or per link, equals the Gibbs free energy at the same force plus force times the expected end-to-end length.", "quantifier": "all forces (nonzero where the closed forms divide by it), temperatures and positive parameters", "why_tests_cant": "The identity links three independently coded functions over continuous inputs; tests sample a few points with a tolerance.", "anchors": ["src/physics/single_chain/efjc/thermodynamics/isotensional/legendre/mod.rs", "src/physics/single_chain/ufjc/morse/thermodynamics/isotensional/asymptotic/legendre/mod.rs", "src/physics/single_chain/wlc/thermodynamics/isotensional/legendre/mod.rs"]}
{"id": "C48", "title": "Isometric Legendre Helmholtz energy is the Legendre transform of the isotensional Gibbs energy at the returned force", "statement": "In the isometric Legendre approximations the nondimensional Helmholtz free energy per link at extension y equals, up to a constant independent of y, the isotensional nondimensional Gibbs free energy per link at the force the model returns for y plus that force times y.", "quantifier": "all pairs of extensions, all temperatures and positive parameters", "why_tests_cant": "Relates a solver output to two closed forms for every extension.", "anchors": ["src/physics/single_chain/fjc/thermodynamics/isometric/legendre/mod.rs", "src/physics/single_chain/efjc/thermodynamics/isometric/asymptotic/legendre/mod.rs", "src/physics/single_chain/swfjc/thermodynamics/isometric/legendre/mod.rs"]}
{"id": "C49", "title": "Damage survival is not monotone in the past maximum stretch", "statement": "In the hyperelastic damage model a larger past maximum stretch does not always leave fewer intact chains: there are grids for which, at the same current stretch, the total probability of intact chains is strictly larger after a larger past stretch, because only the configuration at the past maximum is tested against the critical extension.", "quantifier": "all factors, normalisations, swelling ratios and element matrices, at the stated grid and stretches", "why_tests_cant": "Tests of single loading curves do not compare responses across pasts.", "anchors": ["src/constitutive/hyperelastic_damage/buche_silberstein/mod.rs:uniaxial_tension"]}
{"id": "C50", "title": "Exact distributions of the end-to-end length are normalised", "statement": "The exact radial distribution of the freely jointed chain (2 to 26 links) integrates to exactly one over lengths from zero to the contour length, in its nondimensional and its dimensional form; the radial distribution of the ideal chain integrates to one over all lengths.", "quantifier": "all supported numbers of links and all positive link lengths", "why_tests_cant": "A test integrates numerically at a few parameter values and with a tolerance; the claim is an exact identity of the alternating sum with its integer prefactor for every number of links.", "anchors": ["src/physics/single_chain/fjc/thermodynamics/mod.rs: treloar_sum_0_with_prefactor", "src/physics/single_chain/fjc/thermodynamics/isometric/mod.rs: equilibrium_radial_distribution, nondimensional_equilibrium_radial_distribution", "src/physics/single_chain/ideal/thermodynamics/isometric/mod.rs: nondimensional_equilibrium_radial_distribution"]}
{"id": "C51", "title": "uFJC numerical isotensional extension is positive, bounded and strictly increasing", "statement": "For the Morse, log-squared and Lennard-Jones chains, under every positive force the isotensional extension per link computed by quadrature is positive and below the largest link stretch considered by the quadrature, and a larger force always gives a strictly larger extension.", "quantifier": "all link stiffnesses, link energies, temperatures and positive forces", "why_tests_cant": "An inequality over the whole continuum of forces and parameters; it rests on the log-convexity of a sum of sixty-four exponentials.", "anchors": ["src/physics/single_chain/ufjc/morse/thermodynamics/isotensional/mod.rs: nondimensional_end_to_end_length_per_link", "src/physics/single_chain/ufjc/log_squared/thermodynamics/isotensional/mod.rs: nondimensional_end_to_end_length_per_link", "src/physics/single_chain/ufjc/lennard_jones/thermodynamics/isotensional/mod.rs: nondimensional_end_to_end_length_per_link"]}
{"id": "C52", "title": "The Bessel routines approximate the modified Bessel functions", "statement": "For |x| < 7.75 the order-zero routine is within 7e-6 of the power series of I_0 and the order-one routine within 2e-6 |x| of that of I_1.", "quantifier": "all |x| < 7.75", "why_tests_cant": "A bound over a continuum; tests compare a few points.", "anchors": ["src/math/mod.rs:bessel_i"]}
{"id": "C53", "title": "End-to-end distributions are Boltzmann factors of the Helmholtz energy of the same ensemble", "statement": "For each isometric model that returns an end-to-end distribution, the density times exp(A/kT), with A the Helmholtz energy returned by the same model, is the same at every admissible end-to-end length, at every temperature, in dimensional and nondimensional form.", "quantifier": "all models with distributions, all parameters, all pairs of admissible lengths and all temperatures", "why_tests_cant": "Relates two methods over a continuum of pairs of inputs.", "anchors": ["src/physics/single_chain/wlc/thermodynamics/isometric/mod.rs", "src/physics/single_chain/fjc/thermodynamics/isometric/mod.rs", "src/physics/single_chain/fjc/thermodynamics/isometric/legendre/mod.rs", "src/physics/single_chain/ideal/thermodynamics/isometric/mod.rs", "src/physics/single_chain/swfjc/thermodynamics/isometric/legendre/mod.rs"]}
{"id": "C54", "title": "The Legendre Helmholtz energy is the largest value of Gibbs energy plus force times extension", "statement": "Under the Legendre approximation, for the freely jointed chain and for extensible links (full, reduced and alternative asymptotic approaches), the relative Helmholtz energy per link returned at an extension equals the relative Gibbs energy per link at the returned force plus force times extension, and no other positive force gives a larger value, up to the tolerance of the force solver. For Morse links (full and reduced asymptotic approaches) the returned force is below the breaking force and no other force below it gives a larger value of Gibbs energy plus force times extension. For square-well chains whose wells are at most nine tenths of a link length wide, no other positive force gives a larger value than the returned one, up to the tolerance of the solver, at every extension strictly between zero and the largest one.", "quantifier": "all extensions strictly between zero and full extension, all forces, temperatures, link counts and link lengths", "why_tests_cant": "An optimality claim over a continuum of forces.", "anchors": ["src/physics/single_chain/fjc/thermodynamics/isometric/legendre/mod.rs:nondimensional_relative_helmholtz_free_energy_per_link", "src/physics/single_chain/fjc/thermodynamics/isotensional/mod.rs", "src/physics/single_chain/swfjc/thermodynamics/isometric/legendre/mod.rs:nondimensional_force"]}
{"id": "C55", "title": "Exact extensible chain: the Gibbs energy is lost for stiff links", "statement": "Whenever the nondimensional link stiffness k l^2/kT is above 1425.78 (twice 26.7 squared), the Gibbs free energy returned by the isotensional extensible chain (not the asymptotic variants) falls without bound as the force tends to zero, because the error function is evaluated below -26.7 where it returns the wrong sign (C10).", "quantifier": "all numbers of links, link lengths, masses and temperatures; all stiffnesses with k l^2/kT > 1425.78", "why_tests_cant": "It is a limit statement about every stiffness above a threshold; the tests compare methods of one model with each other at sampled forces, where the error cancels.", "anchors": ["src/physics/single_chain/efjc/thermodynamics/isotensional/mod.rs:gibbs_free_energy", "src/math/mod.rs:erfcx"]}
{"id": "C56", "title": "Definedness of the models which invert a relation numerically", "statement": "The methods which run a Newton search on a chain relation evaluate without a division by zero, a logarithm of a non-positive number, a root of a negative number or a panic, and return the value of the exact-arithmetic formula, on the part of the domain where the search stays inside the domain of the relation: the worm-like chain at fixed force with at most 255 links, persistence length between 1/50 of a link and 1/25 of the contour, and nondimensional forces per link from 1e-6 up to 1e5 (energies: up to 100); the Legendre methods at fixed extension of the square-well (wells at most nine tenths of a link length wide), alternative and asymptotic extensible, Morse and log-squared chains and of Lennard-Jones chains of nondimensional stiffness 40 to a million, each on the range of extensions named in its theorem.", "quantifier": "all positive parameters and temperatures; all forces or extensions of the stated domain", "why_tests_cant": "The iterates depend on the input in a way no finite sample covers; one bad iterate makes the result NaN or a panic.", "anchors": ["src/physics/single_chain/wlc/thermodynamics/isotensional/mod.rs", "src/physics/single_chain/swfjc/thermodynamics/isometric/legendre/mod.rs", "src/physics/single_chain/efjc/thermodynamics/isometric/asymptotic/alternative/legendre/mod.rs", "src/physics/single_chain/ufjc/morse/thermodynamics/isometric/asymptotic/reduced/legendre/mod.rs"]}
{"id": "C57", "title": "Slopes used by the Lennard-Jones and log-squared force solvers", "statement": "The isometric Legendre force of Lennard-Jones and log-squared chains comes from quarter-length Newton steps on the matching isotensional extension, started at or below the largest force of the link potential; for Lennard-Jones links the slope is that of the extension with the slope of the link stretch replaced by a central difference of half-width 1e-6; for log-squared links it is the derivative of the extension wherever the computed link stretch is exact.", "quantifier": "all positive stiffnesses, link lengths and temperatures, all extensions", "why_tests_cant": "A wrong slope still converges at tested points but is wrong as a function.", "anchors": ["src/physics/single_chain/ufjc/lennard_jones/thermodynamics/isometric/asymptotic/legendre/mod.rs:nondimensional_force", "src/physics/single_chain/ufjc/lennard_jones/thermodynamics/isometric/asymptotic/reduced/legendre/mod.rs:nondimensional_force", "src/physics/single_chain/ufjc/log_squared/thermodynamics/isometric/asymptotic/legendre/mod.rs:nondimensional_force", "src/physics/single_chain/ufjc/log_squared/thermodynamics/isometric/asymptotic/reduced/legendre/mod.rs:nondimensional_force"]}
{"id": "C58", "title": "The exported C functions are the Rust methods", "statement": "Every C function exported for a single-chain model returns, for arguments passed in the order of its declaration, the value the method of the same name returns on the Rust model built from the same parameters.", "quantifier": "all parameters and arguments, over any interpretation of the numbers", "why_tests_cant": "There are several hundred functions taking long lists of numbers of the same type; a swapped pair is invisible at the points where the two arguments coincide or enter symmetrically.", "anchors": ["src/physics/single_chain/**/ex.rs"]}
{"id": "C59", "title": "The Python classes are the Rust models applied to arrays", "statement": "A Python class built from given parameters has these as attributes and nested classes for the same ensembles as the Rust model; each of its methods returns, for an array of any shape, the array of the same shape with the values of the Rust method at its entries. For the constitutive models construction fails exactly when it fails in Rust, a call fails exactly when the Rust call does, and a deformation history of any length gives the stresses and the probabilities of the Rust method, as arrays with one dimension.", "quantifier": "all parameters, arrays of all shapes, all deformation histories", "why_tests_cant": "The arrays and histories are unbounded and the maximum stretch is carried from step to step in separate code.", "anchors": ["src/physics/single_chain/**/py.rs", "src/constitutive/hyperelastic/buche_silberstein/py.rs", "src/constitutive/hyperelastic_damage/buche_silberstein/py.rs"]}
{"id": "C60", "title": "The Julia structures are the Rust models", "statement": "A Julia model built from given parameters holds these, has nested models for the same ensembles as the Rust model, and each of its functions applies the Rust method of the same name entry by entry: for numbers and arrays of one common size it returns an array of that size with the values of the Rust method at the entries, for a vector and a row the table of all pairs, and for vectors of different lengths it throws an exception. Functions which divide by the temperature (C91) do so for arrays of the first argument and a single temperature. The nondimensional distributions of the worm-like chain at fixed extension, which are called with integers where the library expects floating-point numbers, agree with Rust when integer and floating-point arguments travel in separate registers.", "quantifier": "all parameters, all numbers, and all arrays of every size and number of dimensions", "why_tests_cant": "The Julia layer closes over the fields of a structure and passes them by position to a foreign function; a misplaced field can be invisible at the tested values.", "anchors": ["src/physics/single_chain/**/mod.jl"]}
{"id": "C61", "title": "Julia worm-like chain distributions on Windows", "statement": "With a calling convention in which the position of an argument decides its register (Microsoft x64), the Julia nondimensional distributions of the worm-like chain at fixed extension do not depend on the extension they are given.", "quantifier": "all contents of the registers before the call, all extensions and arrays of extensions", "why_tests_cant": "The result depends on register contents no test controls.", "anchors": ["src/physics/single_chain/wlc/thermodynamics/isometric/mod.jl", "src/physics/single_chain/wlc/thermodynamics/isometric/ex.rs"]}
{"id": "C62", "title": "Buffers of the C functions of the hyperelastic model", "statement": "The C functions of the hyperelastic model return the Rust stress when the buffers of the caller begin with the grid and the element matrix of the model and are at least 256 and 65536 times longer than those; with any shorter buffer, in particular one holding just the grid or just the matrix, the call violates the contract of the slice constructor and nothing is guaranteed.", "quantifier": "all models that can be constructed, all stretches, all buffers", "why_tests_cant": "Undefined behaviour is not observable by a test that happens to read mapped memory.", "anchors": ["src/constitutive/hyperelastic/buche_silberstein/ex.rs"]}
{"id": "C64", "title": "Ensemble limits of the modified canonical asymptotics", "statement": "The strong-potential force and relative Helmholtz energy of the freely jointed chain differ from those at fixed extension by a constant divided by the stiffness of the potential, so they tend to them as the potential stiffens; the weak-potential extension and Gibbs energy, with the potential placed so that it pulls with a given force, differ from those at fixed force by a constant times the stiffness, so they tend to them as the potential softens.", "quantifier": "all numbers of links in range, all extensions and forces, all stiffnesses", "why_tests_cant": "A limit in the stiffness at every extension or force; tests check a few stiffnesses at random extensions.", "anchors": ["src/physics/single_chain/fjc/thermodynamics/modified_canonical/asymptotic/strong_potential/mod.rs", "src/physics/single_chain/fjc/thermodynamics/modified_canonical/asymptotic/weak_potential/mod.rs"]}
{"id": "C65", "title": "Error of the modified canonical asymptotics", "statement": "Against the free energy of the chain in the potential obtained by integrating its exact distribution, the strong-potential energy is wrong at first order in the reciprocal stiffness, by the amount that the correction leaves out of the Laplacian of the density, and the weak-potential energy is wrong at first order in the stiffness, by the amount of the fluctuation of the extension; both errors are nonzero, so neither correction improves the order of the leading approximation.", "quantifier": "all numbers of links in range, all extensions and forces, as the stiffness tends to infinity or zero", "why_tests_cant": "The repository tests compare the limits only; the order of an error is a statement about all small values of the expansion parameter.", "anchors": ["src/physics/single_chain/fjc/thermodynamics/modified_canonical/asymptotic/strong_potential/mod.rs", "src/physics/single_chain/fjc/thermodynamics/modified_canonical/asymptotic/weak_potential/mod.rs"]}
{"id": "C66", "title": "Fixed force and fixed extension agree exactly", "statement": "Integrating the exact distribution of extensions at fixed extension against the Boltzmann factor of a force gives the partition function, Gibbs energy and mean extension that the library returns at fixed force, for the freely jointed chain and for the ideal chain.", "quantifier": "all numbers of links in range, all nonzero forces, all temperatures", "why_tests_cant": "Equality of an integral transform for every force; the two ensembles are implemented by unrelated formulas (a finite alternating sum and the Langevin function).", "anchors": ["src/physics/single_chain/fjc/thermodynamics/isometric/mod.rs", "src/physics/single_chain/fjc/thermodynamics/isotensional/mod.rs", "src/physics/single_chain/ideal/thermodynamics/isotensional/mod.rs"]}
{"id": "C67", "title": "Stiff potentials in the modified canonical ensemble", "statement": "The Helmholtz free energy computed for the modified canonical ensemble departs without bound from the free energy of the chain in the potential as the potential stiffens, at every distance of the potential below the contour length: the quadrature uses 64 fixed points.", "quantifier": "all numbers of links from 5 to 26, all link lengths, temperatures and distances", "why_tests_cant": "A statement about arbitrarily large stiffness at every distance.", "anchors": ["src/physics/single_chain/fjc/thermodynamics/modified_canonical/mod.rs"]}
{"id": "C63", "title": "Response at small force", "statement": "At small force every chain at fixed force is a linear spring, with the compliance the physics of its link dictates: the freely jointed chain lies within a cubic error below the ideal chain, links with a stiffness add their compliance, square-well links add the mean square of the link length, and the asymptotic and reduced approaches differ by a known amount.", "quantifier": "all forces (bounds for the freely jointed chain), the limit of zero force at all link stiffnesses, energies, well widths and temperatures for the others", "why_tests_cant": "Limits at zero force, where the implemented formulas are 0/0 and cannot be evaluated, and inequalities for every force.", "anchors": ["src/physics/single_chain/fjc/thermodynamics/isotensional/mod.rs", "src/physics/single_chain/ideal/thermodynamics/isotensional/mod.rs", "src/physics/single_chain/efjc/thermodynamics/isotensional/asymptotic/mod.rs", "src/physics/single_chain/efjc/thermodynamics/isotensional/asymptotic/reduced/mod.rs", "src/physics/single_chain/swfjc/thermodynamics/isotensional/mod.rs", "src/physics/single_chain/ufjc/morse/thermodynamics/isotensional/asymptotic/mod.rs"]}
{"id": "C68", "title": "The exact freely jointed chain resists stretching", "statement": "At fixed extension a freely jointed chain of four or more links pulls its ends together with a positive force at every extension; the density of its end-to-end vector decreases with the extension; the force vanishes at zero extension from five links on and grows without bound at full extension, with a closed form near it. Two, three and four links are exceptions that are described exactly.", "quantifier": "all numbers of links in the range the implementation can represent, all extensions, lengths, temperatures", "why_tests_cant": "The sign of an alternating sum of large terms at every real extension; limits at both ends.", "anchors": ["src/physics/single_chain/fjc/thermodynamics/isometric/mod.rs"]}
{"id": "C69", "title": "Models at fixed force are the statistical mechanics of one link", "statement": "At fixed force the Gibbs energies and extensions of the freely jointed and the square-well chains are exactly those of independent links with a rigid or a square-well length, averaged over all directions with the Boltzmann weight; the asymptotic Gibbs energy of harmonic links lies below the exact one by at most an exponentially small amount, and the implemented exact one differs from it only by the error of the error function.", "quantifier": "all forces, link lengths, masses, well widths, temperatures, link stiffnesses (up to 1425.78 kT for the exact extensible chain)", "why_tests_cant": "An equality between a closed form and an integral over all link lengths and directions, for all real parameters.", "anchors": ["src/physics/single_chain/fjc/thermodynamics/isotensional/mod.rs", "src/physics/single_chain/swfjc/thermodynamics/isotensional/mod.rs", "src/physics/single_chain/efjc/thermodynamics/isotensional/mod.rs", "src/physics/single_chain/efjc/thermodynamics/isotensional/asymptotic/mod.rs"]}
{"id": "C70", "title": "Order of accuracy of the asymptotic approaches", "statement": "As the links stiffen, the difference of Gibbs energies between any two forces returned by the asymptotic approaches (harmonic, alternative harmonic, log-squared, Lennard-Jones, Morse) is that of links with the potential of the model, with an error that vanishes faster than the compliance of the link; the reduced approaches are wrong by a term of first order in the compliance, which is never zero.", "quantifier": "all pairs of positive forces, link lengths, masses, temperatures, stretches at which the link breaks, Morse parameters; the limit of infinite stiffness", "why_tests_cant": "A limit of an error against an integral over all link lengths, for every pair of forces.", "anchors": ["src/physics/single_chain/efjc/thermodynamics/isotensional/asymptotic/mod.rs", "src/physics/single_chain/efjc/thermodynamics/isotensional/asymptotic/alternative/mod.rs", "src/physics/single_chain/efjc/thermodynamics/isotensional/asymptotic/reduced/mod.rs", "src/physics/single_chain/ufjc/log_squared/thermodynamics/isotensional/asymptotic/mod.rs", "src/physics/single_chain/ufjc/lennard_jones/thermodynamics/isotensional/asymptotic/mod.rs", "src/physics/single_chain/ufjc/morse/thermodynamics/isotensional/asymptotic/mod.rs"]}
{"id": "C71", "title": "Stiff links in the quadrature at fixed force", "statement": "The extensions at fixed force of the log-squared, Lennard-Jones and Morse chains are computed from an integral over the link length by a midpoint rule with 64 points on a fixed interval. As the link stiffness grows the result tends to that of a rigid link whose length is the point of the grid nearest to the minimum of the potential, about 0.998 of the link length for log-squared links and 0.996 for Lennard-Jones links, and so not to that of the freely jointed chain; for the log-squared and Lennard-Jones links the differences of Gibbs energy between two forces stay off those of the links by an amount that does not vanish.", "quantifier": "all positive forces, pairs of forces, link lengths, masses, temperatures, Morse parameters with a nearest grid point; the limit of infinite stiffness", "why_tests_cant": "A limit in the stiffness for every force; tests pick moderate stiffnesses, where the grid resolves the potential.", "anchors": ["src/math/mod.rs: integrate_1d", "src/physics/single_chain/ufjc/log_squared/thermodynamics/isotensional/mod.rs", "src/physics/single_chain/ufjc/lennard_jones/thermodynamics/isotensional/mod.rs", "src/physics/single_chain/ufjc/morse/thermodynamics/isotensional/mod.rs"]}
{"id": "C72", "title": "Floating-point accuracy of the extension of the freely jointed chain at fixed force", "statement": "In double precision the nondimensional end-to-end length per link returned for a nondimensional force \u03b7 differs from coth \u03b7 - 1/\u03b7 by at most \u03b5(6 + 6/\u03b7), where \u03b5 is the relative error of the platform's mathematical functions. The growth with 1/\u03b7 is real: where the platform rounds tanh correctly, the extension returned for any representable positive force below 2^-27 is exactly zero although the exact one is more than \u03b7/4.", "quantifier": "every platform with round-to-nearest arithmetic, any tie rule and mathematical functions of relative error between 2^-53 and 2^-40; every force from 2^-900 to 2^900; every number of links, link length and mass", "why_tests_cant": "A bound over every number of the format and every platform; tests compare a few values on one machine with a tolerance.", "anchors": ["src/physics/single_chain/fjc/thermodynamics/isotensional/mod.rs: nondimensional_end_to_end_length_per_link"]}
{"id": "C73", "title": "Overflow of energies and extensions at large forces", "statement": "In double precision every nondimensional Gibbs energy at fixed force that is written with sinh or exp of the force (freely jointed, harmonic, square-well and the asymptotic and reduced anharmonic chains), and the Helmholtz energies obtained from them by a Legendre transform, is infinite or not a number at every nondimensional force of 711 or more, although the exact energy is finite; so are the extensions of the square-well chain and of the exact harmonic chain. Below 690 the Gibbs energy per link of the freely jointed chain is accurate to \u03b5(4 + \u03b7).", "quantifier": "every platform as in C72; every force in the range; every number of links and all model parameters, finite or not; every temperature", "why_tests_cant": "Holds for all forces above a threshold and all parameters; tests use moderate forces.", "anchors": ["src/physics/single_chain/fjc/thermodynamics/isotensional/mod.rs", "src/physics/single_chain/fjc/thermodynamics/isotensional/legendre/mod.rs", "src/physics/single_chain/efjc/thermodynamics/isotensional/mod.rs", "src/physics/single_chain/efjc/thermodynamics/isotensional/asymptotic/mod.rs", "src/physics/single_chain/swfjc/thermodynamics/isotensional/mod.rs", "src/physics/single_chain/ufjc/lennard_jones/thermodynamics/isotensional/asymptotic/mod.rs", "src/physics/single_chain/ufjc/log_squared/thermodynamics/isotensional/asymptotic/mod.rs", "src/physics/single_chain/ufjc/morse/thermodynamics/isotensional/asymptotic/mod.rs"]}
{"id": "C74", "title": "Inverse Langevin function and Legendre approach near full extension in floating point", "statement": "In double precision, for an extension \u03b3 between 0.9987 and 1 - 1e-8, the inverse Langevin function and the force of the freely jointed chain in the Legendre approach are finite and have a relative error of at most 6e-8 + 9\u03b5/(1-\u03b3), whatever path the Newton iteration takes; but every nondimensional Helmholtz energy of that approach is lost: it is not finite, and the relative one per link is negative infinity, because sinh of the force overflows.", "quantifier": "every platform as in C72; every extension in the range, and the exact force it belongs to; every number of links, link length, mass and temperature", "why_tests_cant": "The bound has to hold for every extension, rounding behaviour and number of iterations; tests stay away from full extension.", "anchors": ["src/math/mod.rs: inverse_langevin, inverse_newton_raphson", "src/physics/single_chain/fjc/thermodynamics/isometric/legendre/mod.rs"]}
{"id": "C75", "title": "Inverse Langevin function over its whole range in floating point", "statement": "In double precision, for every extension \u03b3 from 9e-4 to 1 - 1e-8 the inverse Langevin function returns a finite positive force whose Langevin function is \u03b3 up to 1e-6 \u03b3 + 9000 \u03b5/\u03b3; below 9e-4 (down to 2^-900) up to 1e-6 \u03b3; between 1.1e-3 and 0.999 up to 6e-12/(1-\u03b3) + 9000 \u03b5/\u03b3, much better than the tolerance of the iteration. The extension of the freely jointed chain at the force of the Legendre approach is the extension one started from, to the same accuracy.", "quantifier": "every platform as in C72 (any rounding to nearest, any library functions within \u03b5 \u2264 2^-40); every extension in the range; any number of iterations taken; every number of links, link length, mass and temperature", "why_tests_cant": "A test samples a few extensions on one platform; the claim is that rounding can neither make the iteration diverge, stop early nor leave the domain at any extension.", "anchors": ["src/math/mod.rs: inverse_langevin, inverse_newton_raphson", "src/physics/single_chain/fjc/thermodynamics/isometric/legendre/mod.rs", "src/physics/single_chain/fjc/thermodynamics/isotensional/mod.rs"]}
{"id": "C76", "title": "Pulling harder makes the chain longer", "statement": "For every model with extensions at fixed force except the exact extensible chain and the worm-like chain, of two forces on the stated range the larger one gives a strictly larger end-to-end length, in all four methods which return one: ideal chain, every force; freely jointed, square-well (any width) and extensible chains (reduced, alternative and full asymptotic) and the quadratures over Morse, log-squared and Lennard-Jones links, every positive force; the reduced and full asymptotic approaches for Morse, log-squared and Lennard-Jones links, every positive force below the largest one the link can bear. For Lennard-Jones links this includes the tolerance of the search for the stretch: a change in the number of its steps never makes the extension go back.", "quantifier": "all positive parameters and temperatures, all pairs of forces of the stated range", "why_tests_cant": "Universal over pairs of inputs; an iteration which stops a step earlier at a nearby force could break it anywhere.", "anchors": ["src/physics/single_chain/ufjc/lennard_jones/thermodynamics/mod.rs", "src/physics/single_chain/ufjc/lennard_jones/thermodynamics/isotensional/asymptotic/mod.rs", "src/physics/single_chain/ufjc/log_squared/thermodynamics/isotensional/asymptotic/mod.rs", "src/physics/single_chain/ufjc/morse/thermodynamics/isotensional/asymptotic/mod.rs", "src/physics/single_chain/swfjc/thermodynamics/isotensional/mod.rs", "src/physics/single_chain/efjc/thermodynamics/isotensional/asymptotic/mod.rs"]}
{"id": "C77", "title": "The Lambert W function is accurate away from the branch point", "statement": "For every argument between -0.95/e and ten thousand the math function lambert_w returns, in exact arithmetic, the solution w > -1 of w exp(w) = x to a relative error of 1e-16, and for arguments from ten thousand to a hundred million to 1e-13. Next to the branch point -1/e it does not: for arguments within a relative distance of 1e-5 of -1/e the result is more than half a percent above the solution, because the number of updates does not grow there.", "quantifier": "all arguments in the stated ranges", "why_tests_cant": "An error bound over a continuum of arguments; the tests compare a handful of values.", "anchors": ["src/math/mod.rs:lambert_w"]}
{"id": "C78", "title": "The hyperelastic stress is that of the network of chains it stands for", "statement": "For every stretch, the stress of the hyperelastic model in uniaxial tension is the axial minus the lateral stress of a network of chains, each pulling with the force of the extensible freely jointed chain and displaced with the material at constant volume from where the distribution of chains puts it; in equibiaxial tension it is the lateral minus the axial stress. The integrals are the rectangle rule at 256 equal steps of the hyperbolic tangent, and the distribution is normalised to one chain by the same rule. For method 2 the distribution is the Boltzmann factor of the free energy of the chain, for method 3 the Gaussian with the mean square length of harmonic links.", "quantifier": "all positive stiffnesses and stretches, all numbers of links, both methods", "why_tests_cant": "Tests compare single stresses with stored values; they do not relate the sums over the grid to the integrals for every stretch and stiffness.", "anchors": ["src/constitutive/hyperelastic/buche_silberstein/mod.rs: init, uniaxial_tension, equibiaxial_tension, BucheSilberstein"]}
{"id": "C79", "title": "The damage response is that of the network of intact chains", "statement": "For every history, each entry of the result of the damage model is the stress of a network and the number of its chains, counting a chain only if at the largest stretch so far it was not longer than the critical extension. The integrals are the rectangle rule at 256 equal steps up to the critical extension, and the distribution is normalised to one chain by the same rule. For method 3 the chains are swollen in all directions before the material is stretched; for method 2 they are not.", "quantifier": "all histories, positive stiffnesses, critical extensions and swelling ratios, all numbers of links", "why_tests_cant": "Property of all histories and parameters.", "anchors": ["src/constitutive/hyperelastic_damage/buche_silberstein/mod.rs: init, uniaxial_tension, BucheSilberstein"]}
{"id": "C80", "title": "Method 2 of the damage model ignores swelling", "statement": "With method 2, for every history the stresses of a swollen network are those of the dry network divided by the square of the swelling ratio and the probabilities of intact chains those of the dry network divided by the swelling ratio; the swelling changes neither the distribution of the chains nor which of them break. In particular the probability of intact chains before any damage falls with the swelling ratio.", "quantifier": "all histories, stiffnesses, critical extensions, swelling ratios and numbers of links", "why_tests_cant": "Tests use single swelling ratios and check no relation between them.", "anchors": ["src/constitutive/hyperelastic_damage/buche_silberstein/mod.rs: init, uniaxial_tension"]}
{"id": "C81", "title": "When the constitutive models return numbers", "statement": "The hyperelastic model with Gaussian chains (method 3) returns a number, the stress of the network, at every stretch. With method 2 it does so exactly at the stretches at which no chain of the grid came from full extension; between stretches one and two there is always one at which it does not. The damage model with method 3 returns numbers for every history when no chain of its grid is at full extension, and with method 2 when moreover none on its axis is and none came from there. When a chain of the grid is at full extension, as for a critical extension of 1.28, no stress is a number for any method and history; when a multiple of the grid spacing is full extension, as for a critical extension of one or two, nothing that method 2 returns is a number.", "quantifier": "all positive stiffnesses, critical extensions and swelling ratios, all stretches and histories, both methods", "why_tests_cant": "Whether one of the 65536 chains of the grid is at the one extension at which the force cannot be evaluated depends on the parameters and the stretch; tests use a few of them.", "anchors": ["src/constitutive/hyperelastic/buche_silberstein/mod.rs: init, uniaxial_tension, equibiaxial_tension", "src/constitutive/hyperelastic_damage/buche_silberstein/mod.rs: init, uniaxial_tension"]}
{"id": "C82", "title": "The undeformed network of the damage model is not free of stress", "statement": "With Gaussian chains (method 3), as long as the material has not been stretched, that is at every step of a history up to which all stretches are one, the damage model returns a positive stress where a network at rest has none. This holds for every critical extension for which no chain of the grid is at full extension, every link stiffness from 10 to a million and every number of links at least a third of the square root of the stiffness times the swelling ratio to the power 2/3. The grid leaves out the chains across the axis, which would balance those along it.", "quantifier": "all parameters in the stated ranges and all histories that begin at rest", "why_tests_cant": "The sign of a sum of 65536 terms that nearly cancel, for a continuum of parameters; a test compares one stress to a tolerance.", "anchors": ["src/constitutive/hyperelastic_damage/buche_silberstein/mod.rs:init", "src/constitutive/hyperelastic_damage/buche_silberstein/mod.rs:uniaxial_tension"]}
{"id": "C83", "title": "The hyperelastic stress at small and at large deformation", "statement": "With Gaussian chains (method 3), for every positive link stiffness and number of links: the hyperelastic stress is differentiable at no deformation, its derivative with respect to the stretch is positive in uniaxial tension and exactly twice that in equibiaxial tension; and in both loadings the stress tends to zero when the stretch tends to infinity and when it tends to zero, because no chain of the grid is near enough to the direction of stretching, although the network it stands for stiffens without bound.", "quantifier": "all positive link stiffnesses and numbers of links; limits over the stretch", "why_tests_cant": "A derivative and four limits, for a continuum of parameters; a test evaluates the stress at a few moderate stretches.", "anchors": ["src/constitutive/hyperelastic/buche_silberstein/mod.rs:uniaxial_tension", "src/constitutive/hyperelastic/buche_silberstein/mod.rs:equibiaxial_tension"]}
{"id": "C84", "title": "The damage model counts missing chains before anything is broken", "statement": "With Gaussian chains (method 3) and no swelling, as long as the material has not been stretched, the fraction of intact chains which the damage model returns is positive but less than one, for every positive critical extension, every positive link stiffness and every number of links. While the Gaussian is resolved by the grid, that is while F (c/256)^2 is at most 9/10 for the exponent F = 3 N / (2 v) of the Gaussian and the critical extension c, at least c/256 times the square root of F over 5 is missing: more than two chains in a hundred for 255 links and a critical extension of 1.5. The grid has no node on the plane across the axis.", "quantifier": "all positive parameters and all histories that begin at rest", "why_tests_cant": "A strict inequality between two sums of 256 and of 65536 terms that agree in the limit of a fine grid, for a continuum of parameters.", "anchors": ["src/constitutive/hyperelastic_damage/buche_silberstein/mod.rs:init", "src/constitutive/hyperelastic_damage/buche_silberstein/mod.rs:uniaxial_tension"]}
{"id": "C85", "title": "The Legendre free energy bounds the probability of large extensions", "statement": "For the exact freely jointed chain of 2 to 26 links, the probability that the chain at rest is longer than a given fraction of its contour length is at most the Boltzmann factor of the relative Helmholtz free energy which the Legendre approach returns there, times one plus twice the force of the Legendre approach times that length over kT. The equilibrium density times the volume of the ball of that radius obeys the same bound with the square of one plus force times length over kT, from 4 links on.", "quantifier": "all extensions strictly between zero and the contour length, all link lengths, hinge masses and temperatures, all numbers of links from 2 to 26", "why_tests_cant": "An inequality between an integral of an alternating sum and a Legendre transform at an approximate inverse of the Langevin function, for a continuum of extensions.", "anchors": ["src/physics/single_chain/fjc/thermodynamics/isometric/mod.rs:nondimensional_equilibrium_radial_distribution", "src/physics/single_chain/fjc/thermodynamics/isometric/mod.rs:nondimensional_equilibrium_distribution", "src/physics/single_chain/fjc/thermodynamics/isometric/legendre/mod.rs:nondimensional_relative_helmholtz_free_energy", "src/physics/single_chain/fjc/thermodynamics/isometric/legendre/mod.rs:nondimensional_force"]}
{"id": "C86", "title": "Heating stiffens a chain held at a length and shortens a chain held at a force", "statement": "At a fixed end-to-end length the force and the relative Helmholtz free energy (of the chain and per link) of the ideal, freely jointed (exact and Legendre), square-well (Legendre) and worm-like chains are proportional to the temperature. At a fixed force the extension of the ideal, freely jointed, square-well and worm-like chains depends on the ratio of force and temperature alone. At a fixed positive force the extension (total and per link) of these chains, and of the extensible, Morse, log-squared and Lennard-Jones chains under the reduced asymptotic approach below the largest force of the link, strictly decreases with the temperature.", "quantifier": "all lengths, all positive forces in the domain of the model, all pairs of positive temperatures, all positive parameters", "why_tests_cant": "The claim relates the results at every pair of temperatures; the code enters the temperature in several places (nondimensional force, stiffness and energy of a link, and a prefactor).", "anchors": ["src/physics/single_chain/ideal/thermodynamics/isometric/mod.rs:force", "src/physics/single_chain/fjc/thermodynamics/isometric/mod.rs:force", "src/physics/single_chain/fjc/thermodynamics/isometric/legendre/mod.rs:relative_helmholtz_free_energy", "src/physics/single_chain/swfjc/thermodynamics/isotensional/mod.rs:end_to_end_length", "src/physics/single_chain/wlc/thermodynamics/isotensional/mod.rs:end_to_end_length", "src/physics/single_chain/efjc/thermodynamics/isotensional/asymptotic/reduced/mod.rs:end_to_end_length", "src/physics/single_chain/ufjc/morse/thermodynamics/isotensional/asymptotic/reduced/mod.rs:end_to_end_length", "src/physics/single_chain/ufjc/log_squared/thermodynamics/isotensional/asymptotic/reduced/mod.rs:end_to_end_length", "src/physics/single_chain/ufjc/lennard_jones/thermodynamics/isotensional/asymptotic/reduced/mod.rs:end_to_end_length"]}
{"id": "C87", "title": "Softer links and wider wells make the chain longer", "statement": "Under the same positive force, temperature, number of links and link length, a chain of stiffer links is strictly shorter: for the extensible chain under each of the three asymptotic approaches, and for Morse, log-squared and Lennard-Jones links under both asymptotic approaches below the largest force of the softer link. A deeper Morse well of the same stiffness makes the chain strictly shorter. A wider square well makes the chain strictly longer. The freely jointed chain is strictly shorter than the extensible and the square-well chain. All four methods that return an extension agree on this.", "quantifier": "all pairs of parameters, all positive forces in the domain, all positive temperatures and link lengths", "why_tests_cant": "An order between the results of two structs for every pair of parameters and every force; the parameter enters nonlinearly, for Lennard-Jones and log-squared links through an iteration.", "anchors": ["src/physics/single_chain/efjc/thermodynamics/isotensional/asymptotic/mod.rs:nondimensional_end_to_end_length_per_link", "src/physics/single_chain/efjc/thermodynamics/isotensional/asymptotic/alternative/mod.rs:nondimensional_end_to_end_length_per_link", "src/physics/single_chain/efjc/thermodynamics/isotensional/asymptotic/reduced/mod.rs:nondimensional_end_to_end_length_per_link", "src/physics/single_chain/swfjc/thermodynamics/isotensional/mod.rs:nondimensional_end_to_end_length_per_link", "src/physics/single_chain/ufjc/morse/thermodynamics/isotensional/asymptotic/mod.rs:nondimensional_end_to_end_length_per_link", "src/physics/single_chain/ufjc/log_squared/thermodynamics/isotensional/asymptotic/mod.rs:nondimensional_end_to_end_length_per_link", "src/physics/single_chain/ufjc/lennard_jones/thermodynamics/isotensional/asymptotic/mod.rs:nondimensional_end_to_end_length_per_link"]}
{"id": "C88", "title": "The Monte Carlo histogram of the freely jointed chain converges to the exact distribution", "statement": "If the random numbers are independent and uniform, then a sampled extension of a chain of 2 to 26 links lies between any two values with the probability which the exact radial distribution of the library gives. The expected height of every bin of the returned histogram is the mean of the exact radial distribution over the bin, for every number of samples, and with probability one the height of every bin converges to it as the number of samples grows. For every number of links, minus the logarithm of the mean of exp(h.R) over the sampled end-to-end vectors R is the Gibbs free energy which the library gives at the force |h|.", "quantifier": "all probability spaces that carry independent uniform draws, all numbers of bins, samples and links in the range, all intervals, all forces", "why_tests_cant": "A statement about the distribution of an unbounded random sequence and about a limit; a test sees one stream and a finite number of samples.", "anchors": ["src/physics/single_chain/fjc/thermodynamics/isometric/monte_carlo/mod.rs:nondimensional_equilibrium_radial_distribution", "src/physics/single_chain/fjc/thermodynamics/isometric/monte_carlo/mod.rs:random_configuration", "src/physics/single_chain/fjc/thermodynamics/isometric/mod.rs:nondimensional_equilibrium_radial_distribution", "src/physics/single_chain/fjc/thermodynamics/isotensional/mod.rs:nondimensional_relative_gibbs_free_energy"]}
{"id": "C89", "title": "Mean square end-to-end length of the sampled chains", "statement": "If the random numbers are independent with the distributions the code asks for, the mean square end-to-end length of a sampled configuration of N links is N for the freely jointed chain, N(1+1/kappa) for the extensible chain, and N(1+c)/(1-c) - 2c(1-c^N)/(1-c)^2 with c = cos(theta) for the freely rotating chain, whose links i and j have the mean cosine c^|i-j|. For the extensible freely rotating chain it is N(1+1/kappa) + 2ac[N/(1-sc) - (1-(sc)^N)/(1-sc)^2], where a is the mean absolute value and s the mean sign of the Gaussian stretch: a negative stretch turns the rest of the chain around. For the freely jointed chain this is 3N times the slope of the extension per link at small forces, as fluctuations in equilibrium require. For the extensible chain it is strictly less than 3N times that slope under each of the three asymptotic approaches: the sampled stretches lack the factor lambda^2.", "quantifier": "all probability spaces that carry ideal draws, all positive numbers of links, all positive stiffnesses, all angles (for the freely rotating chain those whose cosine is not one)", "why_tests_cant": "A statement about averages over all random streams, for every number of links.", "anchors": ["src/physics/single_chain/fjc/thermodynamics/isometric/monte_carlo/mod.rs:random_nondimensional_end_to_end_length", "src/physics/single_chain/efjc/thermodynamics/isometric/monte_carlo/mod.rs:random_nondimensional_end_to_end_length", "src/physics/single_chain/frc/thermodynamics/isometric/monte_carlo/mod.rs:random_nondimensional_end_to_end_length", "src/physics/single_chain/frc/thermodynamics/isometric/monte_carlo/mod.rs:random_configuration", "src/physics/single_chain/efrc/thermodynamics/isometric/monte_carlo/mod.rs:random_nondimensional_end_to_end_length", "src/physics/single_chain/efjc/thermodynamics/isotensional/asymptotic/mod.rs:nondimensional_end_to_end_length_per_link"]}
{"id": "C90", "title": "Long Monte Carlo runs fail, or never do", "statement": "If the random numbers are independent with the distributions the code asks for, a Monte Carlo histogram of an extensible chain (freely jointed or freely rotating) with enough samples fails with probability one, whatever cut-off the caller chooses, because the sampled stretches are not bounded. So does the histogram of the freely rotating chain with an odd number of links, since its own cut-off holds for even numbers only; with an even number of links no run fails, with probability one.", "quantifier": "all probability spaces that carry ideal draws, all positive numbers of links and bins, all positive cut-offs and stiffnesses, all angles (for the freely rotating chain not fully folded, and not zero for odd numbers of links)", "why_tests_cant": "A statement about almost every infinite random stream and about runs longer than any test.", "anchors": ["src/physics/single_chain/efjc/thermodynamics/isometric/monte_carlo/mod.rs:nondimensional_equilibrium_radial_distribution", "src/physics/single_chain/efrc/thermodynamics/isometric/monte_carlo/mod.rs:nondimensional_equilibrium_radial_distribution", "src/physics/single_chain/frc/thermodynamics/isometric/monte_carlo/mod.rs:nondimensional_equilibrium_radial_distribution"]}
{"id": "C91", "title": "Vectors of temperatures in Julia", "statement": "The Julia functions accept numbers, vectors and matrices for every argument. Called with a vector of n extensions (or forces) and a vector of n temperatures, the nondimensional functions of a model with extensible links which depend on the temperature return an n by n matrix instead of n values, because they divide a number by the vector of temperatures, which in Julia is a row: the number times the pseudoinverse. For the extensible freely jointed chain at fixed force, the entry in row i and column j is the extension under force i at the sum of the squares of all temperatures divided by temperature j.", "quantifier": "all nondimensional functions that divide by the temperature, in all models with extensible links; all parameters, lengths of the vectors, and entries", "why_tests_cant": "Holds for vectors of every length and all entries; the tests call these functions with numbers.", "anchors": ["src/physics/single_chain/efjc/**/mod.jl", "src/physics/single_chain/ufjc/**/mod.jl"]}
{"id": "C92", "title": "The error of a Monte Carlo histogram of finite length", "statement": "If the random numbers are independent with the distributions the code asks for, the probability that a Monte Carlo run with S samples returns a histogram with B bins on [0, g) in which the height of some bin is off by \u03b5 or more is at most 2 B exp(-2 S (\u03b5 g / B)\u00b2). The exact height of a bin is the probability that the extension of a random chain falls in it, divided by the width; for the freely jointed chain with 2 to 26 links this is the mean of the exact radial distribution over the bin, and the mean square error of each height is exactly B\u00b2 p (1 - p) / S with p the exact probability of the bin.", "quantifier": "all probability spaces that carry ideal draws, all positive numbers of links, bins and samples, all \u03b5, all positive cut-offs and stiffnesses, all angles which do not fold the chain fully", "why_tests_cant": "A statement about the distribution of the result over all random streams, for every number of samples and bins.", "anchors": ["src/physics/single_chain/fjc/thermodynamics/isometric/monte_carlo/mod.rs:nondimensional_equilibrium_radial_distribution", "src/physics/single_chain/efjc/thermodynamics/isometric/monte_carlo/mod.rs:nondimensional_equilibrium_radial_distribution", "src/physics/single_chain/frc/thermodynamics/isometric/monte_carlo/mod.rs:nondimensional_equilibrium_radial_distribution", "src/physics/single_chain/efrc/thermodynamics/isometric/monte_carlo/mod.rs:nondimensional_equilibrium_radial_distribution"]}
{"id": "C93", "title": "Long sampled chains are ideal", "statement": "If the random numbers are independent with the distributions the code asks for, then for every positive error there is a number of links from which on the probability that a sampled freely jointed chain has a nondimensional end-to-end length per link between alpha and beta differs by at most that error from the integral of the nondimensional radial distribution of the ideal chain with the same number of links, for all alpha and beta at once. For the extensible chain of stiffness kappa the same holds with the ideal chain whose links are longer by the factor sqrt(1+1/kappa).", "quantifier": "all probability spaces that carry ideal draws, all positive errors, all intervals of nonnegative lengths, all positive stiffnesses, all large enough numbers of links", "why_tests_cant": "A limit over the number of links, uniform in all intervals, of averages over all random streams.", "anchors": ["src/physics/single_chain/fjc/thermodynamics/isometric/monte_carlo/mod.rs:random_nondimensional_end_to_end_length", "src/physics/single_chain/efjc/thermodynamics/isometric/monte_carlo/mod.rs:random_nondimensional_end_to_end_length", "src/physics/single_chain/ideal/thermodynamics/isometric/mod.rs:nondimensional_equilibrium_radial_distribution", "src/physics/single_chain/ideal/thermodynamics/isometric/mod.rs:equilibrium_radial_distribution"]}
{"id": "C94", "title": "Floating-point accuracy of the ideal chain", "statement": "In double precision with a mathematical library of relative error e (at least rounding, at most 2^-40), every method of the ideal chain returns a finite number. Forces, extensions and relative energies have a relative error of at most 20 e (5 e to 10 e without dimensions). The distributions of the length have a relative error of at most (40 + 15 E) e, where E is the energy to reach the length in units of kT, up to 300. The Helmholtz and Gibbs energies have an absolute error of at most e times 40 relative energies plus 20 reference energies plus 40 thermal energies kT per link counted.", "quantifier": "all machines with rounding to nearest and such a library, all numbers of links up to 255, all link lengths, lengths or forces, temperatures and hinge masses between 2^-100 and 2^100 in size", "why_tests_cant": "A bound on the rounding error over all arguments and all admissible libraries.", "anchors": ["src/physics/single_chain/ideal/thermodynamics/isometric/mod.rs:force", "src/physics/single_chain/ideal/thermodynamics/isometric/mod.rs:helmholtz_free_energy", "src/physics/single_chain/ideal/thermodynamics/isometric/mod.rs:relative_helmholtz_free_energy", "src/physics/single_chain/ideal/thermodynamics/isometric/mod.rs:equilibrium_distribution", "src/physics/single_chain/ideal/thermodynamics/isometric/mod.rs:equilibrium_radial_distribution", "src/physics/single_chain/ideal/thermodynamics/isotensional/mod.rs:end_to_end_length", "src/physics/single_chain/ideal/thermodynamics/isotensional/mod.rs:gibbs_free_energy", "src/physics/single_chain/ideal/thermodynamics/isotensional/mod.rs:relative_gibbs_free_energy"]}
{"id": "C95", "title": "Floating-point accuracy of the freely jointed chain at fixed force, with its dimensions", "statement": "In double precision with a mathematical library of relative error e (at least rounding, at most 2^-40), the lengths, the Gibbs energies and the Helmholtz energies of the Legendre transform of the freely jointed chain under a force f are finite. The error of the length is at most e (30 + 30 kT/(f l)) times the length of the straight chain. The error of the Gibbs energies is at most e times 40 N f l plus 20 reference energies plus 40 N kT (10 N kT and no reference energy for the relative energy), as long as f l is at most 600 kT, and that of the Helmholtz energies of the Legendre transform is at most e times 50 N f l plus 20 reference energies plus 80 N kT. The same holds per link and without dimensions.", "quantifier": "all machines with rounding to nearest and such a library, all numbers of links up to 255, all positive link lengths, forces, temperatures and hinge masses between 2^-100 and 2^100 (f l <= 600 kT for the energies)", "why_tests_cant": "A bound on the rounding error over all arguments and all admissible libraries, including the rounding of the nondimensional force itself.", "anchors": ["src/physics/single_chain/fjc/thermodynamics/isotensional/mod.rs:end_to_end_length", "src/physics/single_chain/fjc/thermodynamics/isotensional/mod.rs:end_to_end_length_per_link", "src/physics/single_chain/fjc/thermodynamics/isotensional/mod.rs:gibbs_free_energy", "src/physics/single_chain/fjc/thermodynamics/isotensional/mod.rs:relative_gibbs_free_energy", "src/physics/single_chain/fjc/thermodynamics/isotensional/mod.rs:nondimensional_gibbs_free_energy", "src/physics/single_chain/fjc/thermodynamics/isotensional/legendre/mod.rs:helmholtz_free_energy", "src/physics/single_chain/fjc/thermodynamics/isotensional/legendre/mod.rs:relative_helmholtz_free_energy"]}
{"id": "C96", "title": "Floating-point accuracy of the exact freely jointed chain at fixed length", "statement": "In double precision with a mathematical library of relative error e (at least rounding, at most 2^-40), the density and the radial density of the freely jointed chain at the fraction g of the contour length are finite. Their error is at most e times 40 N times the same expression with all terms of the alternating sum of Treloar taken positive, their bases increased by 1e-6 and their exponents decreased by one, although the number of terms is itself found by rounding. When this error is at most a quarter of the sum, the force and the relative Helmholtz energies are finite too, with an error of e times the sum of the relative errors of the sums they contain, times 42 N for the force, and the error of the logarithm for the energies. The same holds per link and without dimensions.", "quantifier": "all machines with rounding to nearest and such a library, all numbers of links from 3 to 26 (4 to 34 for the force), all positive link lengths, end-to-end lengths and temperatures between 2^-100 and 2^100 with g between 1e-9 and 1 - 1e-6", "why_tests_cant": "A bound on the loss of digits in an alternating sum over all arguments and all admissible libraries, including the arguments at which a term is added or dropped by rounding.", "anchors": ["src/physics/single_chain/fjc/thermodynamics/mod.rs:treloar_sums", "src/physics/single_chain/fjc/thermodynamics/mod.rs:treloar_sum_0_with_prefactor", "src/physics/single_chain/fjc/thermodynamics/isometric/mod.rs:equilibrium_distribution", "src/physics/single_chain/fjc/thermodynamics/isometric/mod.rs:equilibrium_radial_distribution", "src/physics/single_chain/fjc/thermodynamics/isometric/mod.rs:force", "src/physics/single_chain/fjc/thermodynamics/isometric/mod.rs:nondimensional_force", "src/physics/single_chain/fjc/thermodynamics/isometric/mod.rs:relative_helmholtz_free_energy", "src/physics/single_chain/fjc/thermodynamics/isometric/mod.rs:nondimensional_relative_helmholtz_free_energy"]}
{"id": "C97", "title": "Floating-point accuracy of the energies of the exact freely jointed chain at fixed length", "statement": "In double precision with a mathematical library of relative error e (at least rounding, at most 2^-40), the Helmholtz energies of the freely jointed chain at a fixed length are finite wherever the density is not lost by rounding. Their error in units of kT is at most 9 e times the sum of three sizes: 43 N times the ratio of the density with all terms taken positive to the density, the logarithm of the density per volume, and N - 1 times the energy of a free hinge plus 24. The Gibbs energies found from the Helmholtz energy and the force at that length are finite too, with an error of 9 e times this size plus 40 N times the size of the work of the force. The relative Gibbs energies, which are differences of two energies of a chain with unit links at 300 K, have an error of 11 e times the sum of the two sizes. The same holds per link, divided by the number of links, and with dimensions, multiplied by kT, with somewhat larger factors.", "quantifier": "all machines with rounding to nearest and such a library, all numbers of links from 3 to 26 (4 to 26 for the Gibbs energies), all positive link lengths, hinge masses, end-to-end lengths and temperatures between 2^-100 and 2^100 at a fraction of the contour length between 1e-9 and 1 - 1e-6", "why_tests_cant": "A bound on the loss of digits over all arguments and all admissible libraries, in expressions that subtract large terms from each other.", "anchors": ["src/physics/single_chain/fjc/thermodynamics/isometric/mod.rs:helmholtz_free_energy", "src/physics/single_chain/fjc/thermodynamics/isometric/mod.rs:helmholtz_free_energy_per_link", "src/physics/single_chain/fjc/thermodynamics/isometric/mod.rs:nondimensional_helmholtz_free_energy", "src/physics/single_chain/fjc/thermodynamics/isometric/mod.rs:nondimensional_helmholtz_free_energy_per_link", "src/physics/single_chain/fjc/thermodynamics/isometric/legendre/mod.rs:gibbs_free_energy", "src/physics/single_chain/fjc/thermodynamics/isometric/legendre/mod.rs:gibbs_free_energy_per_link", "src/physics/single_chain/fjc/thermodynamics/isometric/legendre/mod.rs:relative_gibbs_free_energy", "src/physics/single_chain/fjc/thermodynamics/isometric/legendre/mod.rs:relative_gibbs_free_energy_per_link", "src/physics/single_chain/fjc/thermodynamics/isometric/legendre/mod.rs:nondimensional_gibbs_free_energy", "src/physics/single_chain/fjc/thermodynamics/isometric/legendre/mod.rs:nondimensional_relative_gibbs_free_energy"]}
{"id": "C98", "title": "Floating-point accuracy of the extensible freely jointed chain at fixed force", "statement": "In double precision with a mathematical library of relative error e (at least rounding, at most 2^-40), every method of the extensible freely jointed chain at fixed force in the reduced asymptotic approach is finite and close to its exact value. The error of the end-to-end length per link is at most 24 e times the sum of the link length, kT/f and f/c (f the force, c the link stiffness), so that it is lost only at forces far below kT per link length. The error of a free energy per link in units of kT is at most 51 e times the sum of the sizes of its terms: the nondimensional force (twice for the Helmholtz energy), the elastic energy of the link, half the logarithm of its thermal stretch, the energy of a free hinge, and 40. For a relative free energy the sizes at the force and at the reference force 1e-6 are added, with hinge mass one: a relative energy is not more accurate than the energies it is the difference of. The same holds for the whole chain, times the number of links, with factors up to 56.", "quantifier": "all machines with rounding to nearest and such a library, all numbers of links from 1 to 255, all positive link lengths, hinge masses, stiffnesses, forces and temperatures between 2^-100 and 2^100; for the energies the nondimensional force is at most 600 and it and the nondimensional stiffness are between 2^-100 and 2^100", "why_tests_cant": "A bound on the loss of digits over all arguments and all admissible libraries, in expressions that subtract large terms from each other.", "anchors": ["src/physics/single_chain/efjc/thermodynamics/isotensional/asymptotic/reduced/mod.rs:end_to_end_length", "src/physics/single_chain/efjc/thermodynamics/isotensional/asymptotic/reduced/mod.rs:end_to_end_length_per_link", "src/physics/single_chain/efjc/thermodynamics/isotensional/asymptotic/reduced/mod.rs:nondimensional_end_to_end_length", "src/physics/single_chain/efjc/thermodynamics/isotensional/asymptotic/reduced/mod.rs:nondimensional_end_to_end_length_per_link", "src/physics/single_chain/efjc/thermodynamics/isotensional/asymptotic/reduced/mod.rs:gibbs_free_energy", "src/physics/single_chain/efjc/thermodynamics/isotensional/asymptotic/reduced/mod.rs:gibbs_free_energy_per_link", "src/physics/single_chain/efjc/thermodynamics/isotensional/asymptotic/reduced/mod.rs:relative_gibbs_free_energy", "src/physics/single_chain/efjc/thermodynamics/isotensional/asymptotic/reduced/mod.rs:relative_gibbs_free_energy_per_link", "src/physics/single_chain/efjc/thermodynamics/isotensional/asymptotic/reduced/mod.rs:nondimensional_gibbs_free_energy", "src/physics/single_chain/efjc/thermodynamics/isotensional/asymptotic/reduced/mod.rs:nondimensional_relative_gibbs_free_energy", "src/physics/single_chain/efjc/thermodynamics/isotensional/asymptotic/reduced/legendre/mod.rs:helmholtz_free_energy", "src/physics/single_chain/efjc/thermodynamics/isotensional/asymptotic/reduced/legendre/mod.rs:helmholtz_free_energy_per_link", "src/physics/single_chain/efjc/thermodynamics/isotensional/asymptotic/reduced/legendre/mod.rs:relative_helmholtz_free_energy", "src/physics/single_chain/efjc/thermodynamics/isotensional/asymptotic/reduced/legendre/mod.rs:nondimensional_helmholtz_free_energy", "src/physics/single_chain/efjc/thermodynamics/isotensional/asymptotic/reduced/legendre/mod.rs:nondimensional_relative_helmholtz_free_energy"]}
{"id": "C99", "title": "Floating-point accuracy of the square-well chain at fixed force, and its loss for narrow wells", "statement": "In double precision with a mathematical library of relative error e (at least rounding, at most 2^-40), every length, every Gibbs free energy and every Helmholtz free energy of the square-well chain at fixed force is finite and close to its exact value wherever the partition function of a link, a sum of four hyperbolic terms that cancel at small forces and for narrow wells, is at least 84 e times the size of its terms. The error of the nondimensional length per link is at most 53 e times the sum of the conditioned quotient of the derivative and the partition function and the subtracted term 3/(nondimensional force); that of the nondimensional Gibbs energy per link is at most 33 e times the sum of the sizes of its logarithms, the ratio of the size of the terms of the partition function to its value, and 4; that of the nondimensional Helmholtz energy per link is at most 78 e times the force times the first of these sizes plus the second. A relative energy also needs the partition function to be resolved at the reference force 1e-6. Conversely, when the well is narrower than 2^-56 link lengths, at every nondimensional force up to 1 no nondimensional length and no nondimensional Gibbs or Helmholtz energy is a finite number, although the exact values are close to those of the freely jointed chain; no relative Gibbs or Helmholtz energy is finite at any force.", "quantifier": "all machines with rounding to nearest and such a library (for the converse, one returning floating-point numbers), all numbers of links from 1 to 255, all positive link lengths, hinge masses, well widths, forces and temperatures between 2^-100 and 2^100 with a well of at most 2^20 link lengths and an outer nondimensional force of at most 300; for the converse all numbers of links, masses and forces", "why_tests_cant": "A bound on the loss of digits over all arguments and all admissible libraries; the tests use wells of a fixed order of magnitude and never reach the cancellation.", "anchors": ["src/physics/single_chain/swfjc/thermodynamics/isotensional/mod.rs:end_to_end_length", "src/physics/single_chain/swfjc/thermodynamics/isotensional/mod.rs:end_to_end_length_per_link", "src/physics/single_chain/swfjc/thermodynamics/isotensional/mod.rs:nondimensional_end_to_end_length", "src/physics/single_chain/swfjc/thermodynamics/isotensional/mod.rs:nondimensional_end_to_end_length_per_link", "src/physics/single_chain/swfjc/thermodynamics/isotensional/mod.rs:gibbs_free_energy", "src/physics/single_chain/swfjc/thermodynamics/isotensional/mod.rs:gibbs_free_energy_per_link", "src/physics/single_chain/swfjc/thermodynamics/isotensional/mod.rs:relative_gibbs_free_energy", "src/physics/single_chain/swfjc/thermodynamics/isotensional/mod.rs:relative_gibbs_free_energy_per_link", "src/physics/single_chain/swfjc/thermodynamics/isotensional/mod.rs:nondimensional_gibbs_free_energy", "src/physics/single_chain/swfjc/thermodynamics/isotensional/mod.rs:nondimensional_gibbs_free_energy_per_link", "src/physics/single_chain/swfjc/thermodynamics/isotensional/mod.rs:nondimensional_relative_gibbs_free_energy", "src/physics/single_chain/swfjc/thermodynamics/isotensional/mod.rs:nondimensional_relative_gibbs_free_energy_per_link", "src/physics/single_chain/swfjc/thermodynamics/isotensional/legendre/mod.rs:helmholtz_free_energy", "src/physics/single_chain/swfjc/thermodynamics/isotensional/legendre/mod.rs:helmholtz_free_energy_per_link", "src/physics/single_chain/swfjc/thermodynamics/isotensional/legendre/mod.rs:relative_helmholtz_free_energy", "src/physics/single_chain/swfjc/thermodynamics/isotensional/legendre/mod.rs:relative_helmholtz_free_energy_per_link", "src/physics/single_chain/swfjc/thermodynamics/isotensional/legendre/mod.rs:nondimensional_helmholtz_free_energy", "src/physics/single_chain/swfjc/thermodynamics/isotensional/legendre/mod.rs:nondimensional_helmholtz_free_energy_per_link", "src/physics/single_chain/swfjc/thermodynamics/isotensional/legendre/mod.rs:nondimensional_relative_helmholtz_free_energy", "src/physics/single_chain/swfjc/thermodynamics/isotensional/legendre/mod.rs:nondimensional_relative_helmholtz_free_energy_per_link"]}
{"id": "C100", "title": "Floating-point accuracy of the extensible chain at fixed force in the alternative asymptotic approach", "statement": "In double precision with a mathematical library of relative error e (at least rounding, at most 2^-40), every length, Gibbs free energy and Helmholtz free energy of the extensible freely jointed chain in the alternative asymptotic approach at fixed force is finite and close to its exact value. With eta the nondimensional force and kappa the nondimensional stiffness, the error of the nondimensional length per link is at most 41 e (1 + 1/eta + (2 + eta + 2/eta)/kappa). That of the nondimensional Gibbs energy per link is at most 39 e times the size of its terms: eta + eta^2/(2 kappa) + (1 + eta)/kappa, the sizes of the two logarithms of the thermal stretch and the free hinge, and 40. That of the nondimensional Helmholtz energy per link is at most 66 e times this size plus 2 + eta + (2 + 2 eta + eta^2)/kappa. The term eta/sinh^2(eta), whose relative error grows with eta, decays fast enough to leave the error at this size. The values of a chain, the values with dimensions and the values relative to the reference force 1e-6 have errors of the same kind.", "quantifier": "all machines with rounding to nearest and such a library, all numbers of links from 1 to 255, all positive link lengths, hinge masses, stiffnesses, forces and temperatures between 2^-100 and 2^100 whose nondimensional force and stiffness are in the same range, with a nondimensional force up to 300 (600 for the Gibbs energies)", "why_tests_cant": "A bound on the rounding error over all arguments and all admissible libraries; the tests compare formulas at sampled arguments with a tolerance.", "anchors": ["src/physics/single_chain/efjc/thermodynamics/isotensional/asymptotic/alternative/mod.rs:end_to_end_length", "src/physics/single_chain/efjc/thermodynamics/isotensional/asymptotic/alternative/mod.rs:end_to_end_length_per_link", "src/physics/single_chain/efjc/thermodynamics/isotensional/asymptotic/alternative/mod.rs:nondimensional_end_to_end_length", "src/physics/single_chain/efjc/thermodynamics/isotensional/asymptotic/alternative/mod.rs:nondimensional_end_to_end_length_per_link", "src/physics/single_chain/efjc/thermodynamics/isotensional/asymptotic/alternative/mod.rs:gibbs_free_energy", "src/physics/single_chain/efjc/thermodynamics/isotensional/asymptotic/alternative/mod.rs:gibbs_free_energy_per_link", "src/physics/single_chain/efjc/thermodynamics/isotensional/asymptotic/alternative/mod.rs:relative_gibbs_free_energy", "src/physics/single_chain/efjc/thermodynamics/isotensional/asymptotic/alternative/mod.rs:relative_gibbs_free_energy_per_link", "src/physics/single_chain/efjc/thermodynamics/isotensional/asymptotic/alternative/mod.rs:nondimensional_gibbs_free_energy", "src/physics/single_chain/efjc/thermodynamics/isotensional/asymptotic/alternative/mod.rs:nondimensional_gibbs_free_energy_per_link", "src/physics/single_chain/efjc/thermodynamics/isotensional/asymptotic/alternative/mod.rs:nondimensional_relative_gibbs_free_energy", "src/physics/single_chain/efjc/thermodynamics/isotensional/asymptotic/alternative/mod.rs:nondimensional_relative_gibbs_free_energy_per_link", "src/physics/single_chain/efjc/thermodynamics/isotensional/asymptotic/alternative/legendre/mod.rs:helmholtz_free_energy", "src/physics/single_chain/efjc/thermodynamics/isotensional/asymptotic/alternative/legendre/mod.rs:helmholtz_free_energy_per_link", "src/physics/single_chain/efjc/thermodynamics/isotensional/asymptotic/alternative/legendre/mod.rs:relative_helmholtz_free_energy", "src/physics/single_chain/efjc/thermodynamics/isotensional/asymptotic/alternative/legendre/mod.rs:relative_helmholtz_free_energy_per_link", "src/physics/single_chain/efjc/thermodynamics/isotensional/asymptotic/alternative/legendre/mod.rs:nondimensional_helmholtz_free_energy", "src/physics/single_chain/efjc/thermodynamics/isotensional/asymptotic/alternative/legendre/mod.rs:nondimensional_helmholtz_free_energy_per_link", "src/physics/single_chain/efjc/thermodynamics/isotensional/asymptotic/alternative/legendre/mod.rs:nondimensional_relative_helmholtz_free_energy", "src/physics/single_chain/efjc/thermodynamics/isotensional/asymptotic/alternative/legendre/mod.rs:nondimensional_relative_helmholtz_free_energy_per_link"]}
{"id": "C101", "title": "Floating-point accuracy of the chain with Morse links at fixed force, and its loss at the largest force", "statement": "In double precision with a mathematical library of relative error e (at least rounding, at most 2^-40), the lengths at fixed force of the freely jointed chain with Morse links in the reduced asymptotic approach are finite and close to their exact values as long as the force is below the largest force that the links bear by a fraction 1000 e. With eta the nondimensional force, kappa the nondimensional stiffness, u the nondimensional link energy and eta_max = sqrt(u kappa / 8), the error of the nondimensional length per link is at most 82 e (1 + 1/eta + sqrt(2 u / kappa) / sqrt(1 - eta/eta_max)): it grows as the inverse root of the distance from the largest force. The length of the chain and the lengths with dimensions have errors of the same kind. When the force exceeds the largest force by a fraction 20 e, the four methods return NaN.", "quantifier": "all machines with rounding to nearest and such a library, all numbers of links from 1 to 255, all positive link lengths, stiffnesses, link energies, forces and temperatures between 2^-100 and 2^100 whose nondimensional force, stiffness and link energy are in the same range, with a force on the stated side of the largest force", "why_tests_cant": "A bound on the rounding error over all arguments and all admissible libraries, up to the force at which the formula stops being defined; the tests compare formulas at sampled arguments with a tolerance.", "anchors": ["src/physics/single_chain/ufjc/morse/thermodynamics/isotensional/asymptotic/reduced/mod.rs:end_to_end_length", "src/physics/single_chain/ufjc/morse/thermodynamics/isotensional/asymptotic/reduced/mod.rs:end_to_end_length_per_link", "src/physics/single_chain/ufjc/morse/thermodynamics/isotensional/asymptotic/reduced/mod.rs:nondimensional_end_to_end_length", "src/physics/single_chain/ufjc/morse/thermodynamics/isotensional/asymptotic/reduced/mod.rs:nondimensional_end_to_end_length_per_link"]}
{"id": "C102", "title": "Floating-point accuracy of the Gibbs energies of the chain with Morse links, and NaN above the largest force", "statement": "In double precision with a mathematical library of relative error e (at least rounding, at most 2^-40), the Gibbs energies at fixed force of the freely jointed chain with Morse links in the reduced asymptotic approach are finite and close to their exact values as long as the force (and, for the relative energies, the reference force 1e-6) is below the largest force that the links bear by a fraction 1000 e. With eta the nondimensional force, kappa the nondimensional stiffness, u the nondimensional link energy and eta_max = sqrt(u kappa / 8), the error of the nondimensional Gibbs energy per link is at most 116 e S, where S is the sum of the sizes of its terms: eta, (2 u + eta sqrt(2 u / kappa)) / sqrt(1 - eta/eta_max), half the logarithm of the thermal stretch, the logarithm of the free hinge and 40. The energies of the chain, the relative energies and the energies with dimensions have errors of at most 132 e times the same size. When the force exceeds the largest force by a fraction 20 e, all eight methods return NaN, and none of them panics.", "quantifier": "all machines with rounding to nearest and such a library, all numbers of links from 1 to 255, all positive link lengths, hinge masses, stiffnesses, link energies, forces and temperatures between 2^-100 and 2^100 whose nondimensional force, stiffness and link energy are in the same range, with a nondimensional force up to 600 below the largest force, or any force above it", "why_tests_cant": "A bound on the rounding error over all arguments and all admissible libraries, up to the force at which the formula stops being defined; the tests compare formulas at sampled arguments with a tolerance.", "anchors": ["src/physics/single_chain/ufjc/morse/thermodynamics/isotensional/asymptotic/reduced/mod.rs:gibbs_free_energy", "src/physics/single_chain/ufjc/morse/thermodynamics/isotensional/asymptotic/reduced/mod.rs:gibbs_free_energy_per_link", "src/physics/single_chain/ufjc/morse/thermodynamics/isotensional/asymptotic/reduced/mod.rs:relative_gibbs_free_energy", "src/physics/single_chain/ufjc/morse/thermodynamics/isotensional/asymptotic/reduced/mod.rs:relative_gibbs_free_energy_per_link", "src/physics/single_chain/ufjc/morse/thermodynamics/isotensional/asymptotic/reduced/mod.rs:nondimensional_gibbs_free_energy", "src/physics/single_chain/ufjc/morse/thermodynamics/isotensional/asymptotic/reduced/mod.rs:nondimensional_gibbs_free_energy_per_link", "src/physics/single_chain/ufjc/morse/thermodynamics/isotensional/asymptotic/reduced/mod.rs:nondimensional_relative_gibbs_free_energy", "src/physics/single_chain/ufjc/morse/thermodynamics/isotensional/asymptotic/reduced/mod.rs:nondimensional_relative_gibbs_free_energy_per_link"]}
{"id": "C103", "title": "Floating-point accuracy of the Helmholtz energies at fixed force of the chain with Morse links, and NaN above the largest force", "statement": "In double precision with a mathematical library of relative error e (at least rounding, at most 2^-40), the Helmholtz energies of the freely jointed chain with Morse links found from the fixed-force ensemble by the Legendre transformation, in the reduced asymptotic approach, are finite and close to their exact values as long as the force (and, for the relative energies, the reference force 1e-6) is below the largest force that the links bear by a fraction 1000 e. With eta the nondimensional force, kappa the nondimensional stiffness, u the nondimensional link energy and eta_max = sqrt(u kappa / 8), the error of the nondimensional Helmholtz energy per link is at most 110 e S, where S is the sum of the sizes of its terms: 2 eta, 2 u / sqrt(1 - eta/eta_max), half the logarithm of the thermal stretch, the logarithm of the free hinge and 40. The energies of the chain, the relative energies and the energies with dimensions have errors of at most 126 e times the same size. When the force exceeds the largest force by a fraction 20 e, all eight methods return NaN.", "quantifier": "all machines with rounding to nearest and such a library, all numbers of links from 1 to 255, all positive link lengths, hinge masses, stiffnesses, link energies, forces and temperatures between 2^-100 and 2^100 whose nondimensional force, stiffness and link energy are in the same range, with a nondimensional force up to 600 below the largest force, or any force above it", "why_tests_cant": "A bound on the rounding error over all arguments and all admissible libraries, up to the force at which the formula stops being defined; the tests compare formulas at sampled arguments with a tolerance.", "anchors": ["src/physics/single_chain/ufjc/morse/thermodynamics/isotensional/asymptotic/reduced/legendre/mod.rs:helmholtz_free_energy", "src/physics/single_chain/ufjc/morse/thermodynamics/isotensional/asymptotic/reduced/legendre/mod.rs:helmholtz_free_energy_per_link", "src/physics/single_chain/ufjc/morse/thermodynamics/isotensional/asymptotic/reduced/legendre/mod.rs:relative_helmholtz_free_energy", "src/physics/single_chain/ufjc/morse/thermodynamics/isotensional/asymptotic/reduced/legendre/mod.rs:relative_helmholtz_free_energy_per_link", "src/physics/single_chain/ufjc/morse/thermodynamics/isotensional/asymptotic/reduced/legendre/mod.rs:nondimensional_helmholtz_free_energy", "src/physics/single_chain/ufjc/morse/thermodynamics/isotensional/asymptotic/reduced/legendre/mod.rs:nondimensional_helmholtz_free_energy_per_link", "src/physics/single_chain/ufjc/morse/thermodynamics/isotensional/asymptotic/reduced/legendre/mod.rs:nondimensional_relative_helmholtz_free_energy", "src/physics/single_chain/ufjc/morse/thermodynamics/isotensional/asymptotic/reduced/legendre/mod.rs:nondimensional_relative_helmholtz_free_energy_per_link"]}
{"id": "C104", "title": "Floating-point accuracy of the lengths and the Gibbs energies of the extensible chain in the asymptotic approach", "statement": "In double precision with a mathematical library of relative error e (at least rounding, at most 2^-40), the end-to-end lengths and the Gibbs free energies of the extensible freely jointed chain at fixed force, in the full asymptotic approach, are finite and close to their exact values. With eta the nondimensional force and kappa the nondimensional stiffness, the error of the nondimensional length per link is at most 51 e (3 + 3/eta + eta/kappa). The error of the nondimensional Gibbs energy per link is at most 40 e S, where S is the sum of the sizes of its terms: eta, eta^2/(2 kappa), half the logarithm of the thermal stretch, the logarithm of the free hinge, the logarithm of 1 + eta/(kappa tanh eta) and 71. The lengths and energies of the chain, with their dimensions, and the relative energies have bounds of the same form.", "quantifier": "all machines with rounding to nearest and such a library, all numbers of links from 1 to 255, all positive link lengths, hinge masses, stiffnesses, forces and temperatures between 2^-100 and 2^100 whose nondimensional force and stiffness are in the same range, with a nondimensional force up to 600 for the energies", "why_tests_cant": "A bound on the rounding error over all arguments and all admissible libraries; the tests compare formulas at sampled arguments with a tolerance.", "anchors": ["src/physics/single_chain/efjc/thermodynamics/isotensional/asymptotic/mod.rs:end_to_end_length", "src/physics/single_chain/efjc/thermodynamics/isotensional/asymptotic/mod.rs:end_to_end_length_per_link", "src/physics/single_chain/efjc/thermodynamics/isotensional/asymptotic/mod.rs:nondimensional_end_to_end_length", "src/physics/single_chain/efjc/thermodynamics/isotensional/asymptotic/mod.rs:nondimensional_end_to_end_length_per_link", "src/physics/single_chain/efjc/thermodynamics/isotensional/asymptotic/mod.rs:gibbs_free_energy", "src/physics/single_chain/efjc/thermodynamics/isotensional/asymptotic/mod.rs:gibbs_free_energy_per_link", "src/physics/single_chain/efjc/thermodynamics/isotensional/asymptotic/mod.rs:relative_gibbs_free_energy", "src/physics/single_chain/efjc/thermodynamics/isotensional/asymptotic/mod.rs:relative_gibbs_free_energy_per_link", "src/physics/single_chain/efjc/thermodynamics/isotensional/asymptotic/mod.rs:nondimensional_gibbs_free_energy", "src/physics/single_chain/efjc/thermodynamics/isotensional/asymptotic/mod.rs:nondimensional_gibbs_free_energy_per_link", "src/physics/single_chain/efjc/thermodynamics/isotensional/asymptotic/mod.rs:nondimensional_relative_gibbs_free_energy", "src/physics/single_chain/efjc/thermodynamics/isotensional/asymptotic/mod.rs:nondimensional_relative_gibbs_free_energy_per_link"]}
{"id": "C105", "title": "Floating-point accuracy of the Helmholtz energies at fixed force of the extensible chain in the asymptotic approach", "statement": "In double precision with a mathematical library of relative error e (at least rounding, at most 2^-40), the Helmholtz free energies of the extensible freely jointed chain found from the fixed-force ensemble by the Legendre transformation, in the full asymptotic approach, are finite and close to their exact values. With eta the nondimensional force and kappa the nondimensional stiffness, the error of the nondimensional energy per link is at most 78 e S, where S is the sum of the sizes of the terms of the Gibbs energy (C104), 4 + 3 eta and eta^2/kappa. This holds of the method of a single link too, which has a formula of its own. The energies of the chain, with their dimensions, and the relative energies have bounds of the same form.", "quantifier": "all machines with rounding to nearest and such a library, all numbers of links from 1 to 255, all positive link lengths, hinge masses, stiffnesses, forces and temperatures between 2^-100 and 2^100 whose nondimensional force and stiffness are in the same range, with a nondimensional force up to 600", "why_tests_cant": "A bound on the rounding error over all arguments and all admissible libraries; the tests compare formulas at sampled arguments with a tolerance.", "anchors": ["src/physics/single_chain/efjc/thermodynamics/isotensional/asymptotic/legendre/mod.rs:helmholtz_free_energy", "src/physics/single_chain/efjc/thermodynamics/isotensional/asymptotic/legendre/mod.rs:helmholtz_free_energy_per_link", "src/physics/single_chain/efjc/thermodynamics/isotensional/asymptotic/legendre/mod.rs:relative_helmholtz_free_energy", "src/physics/single_chain/efjc/thermodynamics/isotensional/asymptotic/legendre/mod.rs:relative_helmholtz_free_energy_per_link", "src/physics/single_chain/efjc/thermodynamics/isotensional/asymptotic/legendre/mod.rs:nondimensional_helmholtz_free_energy", "src/physics/single_chain/efjc/thermodynamics/isotensional/asymptotic/legendre/mod.rs:nondimensional_helmholtz_free_energy_per_link", "src/physics/single_chain/efjc/thermodynamics/isotensional/asymptotic/legendre/mod.rs:nondimensional_relative_helmholtz_free_energy", "src/physics/single_chain/efjc/thermodynamics/isotensional/asymptotic/legendre/mod.rs:nondimensional_relative_helmholtz_free_energy_per_link", "src/physics/single_chain/efjc/thermodynamics/isotensional/asymptotic/legendre/mod.rs:EFJC::nondimensional_helmholtz_free_energy_per_link"]}
{"id": "C106", "title": "NaN above the largest force for the chain with Morse links in the full asymptotic approach", "statement": "In double precision with a mathematical library of relative error e (at least rounding, at most 2^-40), all lengths, Gibbs energies and Helmholtz energies of the freely jointed chain with Morse links at fixed force, in the full asymptotic approach, are NaN when the force exceeds the largest force that the links bear by a fraction 20 e or more: with eta the nondimensional force, kappa the nondimensional stiffness and u the nondimensional link energy, when eta >= (1 + 20 e) sqrt(u kappa / 8). None of the methods panics, and no infinity or finite number is returned.", "quantifier": "all machines with rounding to nearest and such a library, all numbers of links (from 1 to 255 for the lengths), all positive link lengths, stiffnesses, link energies, forces and temperatures between 2^-100 and 2^100 whose nondimensional force, stiffness and link energy are in the same range, and all hinge masses", "why_tests_cant": "A statement on all forces above a threshold that depends on the parameters, for all admissible libraries; the tests only use forces below it.", "anchors": ["src/physics/single_chain/ufjc/morse/thermodynamics/isotensional/asymptotic/mod.rs:end_to_end_length", "src/physics/single_chain/ufjc/morse/thermodynamics/isotensional/asymptotic/mod.rs:end_to_end_length_per_link", "src/physics/single_chain/ufjc/morse/thermodynamics/isotensional/asymptotic/mod.rs:nondimensional_end_to_end_length", "src/physics/single_chain/ufjc/morse/thermodynamics/isotensional/asymptotic/mod.rs:nondimensional_end_to_end_length_per_link", "src/physics/single_chain/ufjc/morse/thermodynamics/isotensional/asymptotic/mod.rs:gibbs_free_energy", "src/physics/single_chain/ufjc/morse/thermodynamics/isotensional/asymptotic/mod.rs:gibbs_free_energy_per_link", "src/physics/single_chain/ufjc/morse/thermodynamics/isotensional/asymptotic/mod.rs:relative_gibbs_free_energy", "src/physics/single_chain/ufjc/morse/thermodynamics/isotensional/asymptotic/mod.rs:relative_gibbs_free_energy_per_link", "src/physics/single_chain/ufjc/morse/thermodynamics/isotensional/asymptotic/mod.rs:nondimensional_gibbs_free_energy", "src/physics/single_chain/ufjc/morse/thermodynamics/isotensional/asymptotic/mod.rs:nondimensional_gibbs_free_energy_per_link", "src/physics/single_chain/ufjc/morse/thermodynamics/isotensional/asymptotic/mod.rs:nondimensional_relative_gibbs_free_energy", "src/physics/single_chain/ufjc/morse/thermodynamics/isotensional/asymptotic/mod.rs:nondimensional_relative_gibbs_free_energy_per_link", "src/physics/single_chain/ufjc/morse/thermodynamics/isotensional/asymptotic/legendre/mod.rs:helmholtz_free_energy", "src/physics/single_chain/ufjc/morse/thermodynamics/isotensional/asymptotic/legendre/mod.rs:helmholtz_free_energy_per_link", "src/physics/single_chain/ufjc/morse/thermodynamics/isotensional/asymptotic/legendre/mod.rs:relative_helmholtz_free_energy", "src/physics/single_chain/ufjc/morse/thermodynamics/isotensional/asymptotic/legendre/mod.rs:relative_helmholtz_free_energy_per_link", "src/physics/single_chain/ufjc/morse/thermodynamics/isotensional/asymptotic/legendre/mod.rs:nondimensional_helmholtz_free_energy", "src/physics/single_chain/ufjc/morse/thermodynamics/isotensional/asymptotic/legendre/mod.rs:nondimensional_helmholtz_free_energy_per_link", "src/physics/single_chain/ufjc/morse/thermodynamics/isotensional/asymptotic/legendre/mod.rs:nondimensional_relative_helmholtz_free_energy", "src/physics/single_chain/ufjc/morse/thermodynamics/isotensional/asymptotic/legendre/mod.rs:nondimensional_relative_helmholtz_free_energy_per_link"]}
