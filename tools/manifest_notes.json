{
 "C16": {
  "note": "Worm-like chain isotensional energies: wherever the internal search succeeds (it does for persistence length at most 1/25 of the contour length)."
 },
 "C25": {
  "note": "Lennard-Jones and log-squared chains pass another slope; see C57."
 },
 "C28": {
  "note": "In exact arithmetic. For wells wider than eight link lengths some forces on the grid are far from the solution (C26_swfjc_wide_well)."
 },
 "C36": {
  "note": "In exact arithmetic. For square wells wider than eight link lengths some forces on the grid are far from the solution (C26_swfjc_wide_well)."
 },
 "C26": {
  "note": "Proved for the freely jointed chain, the full, reduced and alternative asymptotic extensible chains and the full and reduced asymptotic Morse, log-squared and Lennard-Jones chains and the square-well chain with wells at most 0.9 of a link length wide, refuted for wide square wells. Other models: C25 gives the stopping rule; convergence of their solvers is not claimed."
 },
 "C56": {
  "note": "Proved for the worm-like chain at fixed force, and at fixed extension for the alternative and full asymptotic extensible chains, the full and reduced asymptotic Morse, log-squared and Lennard-Jones chains, and the square-well chain with wells at most 0.9 of a link length wide. The Lennard-Jones chains: nondimensional stiffness from 40 to a million, extensions from 1e-6 to the Langevin value at the force kappa/46."
 }
}