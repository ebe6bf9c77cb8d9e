# Formal model of obscura in Lean 4 — design

Source under study: `/repo` (temken/obscura, C++). Prover: Lean 4.33.0 with Mathlib.

## Layout

* `lean/Verif/Basic.lean` — outcomes of C++ code (`ok`, `exit`, `ub`, `nonfinite`), units.
* `lean/Verif/Model/*.lean` — the model, one file per area; every definition cites file and lines in `/repo`.
* `lean/Verif/Spec/*.lean` — small independent specifications (what a user means), not using model helpers.
* `lean/Verif/Lemmas/*.lean` — helper lemmas.
* `lean/Verif/Props/*.lean` — the property theorems, each with a non-vacuity `example` beside it.

## Modelling decisions

* `double` is modelled by the real numbers. Overflow to infinity and denormals are *not* modelled. Rounding is modelled for the values that are
  stored and read back again and again (`Model/Rounding.lean`, C88 and C89: a rounding after every operation, in the order of the source).
  A division whose divisor is zero and a square root of a negative number are the distinct outcome `nonfinite`
  in stateful code; in closed formulas every divisor is a hypothesis of the theorem.
* `std::exit(EXIT_FAILURE)` and uncaught exceptions are the outcome `exit`; undefined behaviour (out-of-bounds
  `operator[]`, dereferencing `end()`, reading an uninitialised member, float-to-int conversion out of range)
  is the outcome `ub`. Integer types whose wrap-around can be observed are modelled with their width.
* C++ objects are immutable records; member functions are functions from the old to the new record;
  histories are lists of operations.
* Virtual functions are modelled by a sum of the concrete subclasses or by a table of functions when the
  theorem holds for any subclass.
* Code outside `/repo` (libphysica) appears as a mathematical definition when its meaning is fixed by its name
  (reduced mass, step function, Poisson CDF, binomial PMF, erf) and otherwise as a *parameter* with an explicit
  contract (`Integrate`, `Find_Root`, `Interpolation`). Contracts are hypotheses of the theorems, never axioms.
* Output on the terminal is a list of printed entries (`Print_Summary`); the number format and progress bars are not modelled.

## Trusted base

* Lean's kernel; axioms `propext`, `Classical.choice`, `Quot.sound` (the standard ones used by Mathlib) and no others;
  `AXIOMS.md` lists them theorem by theorem.
* The reading of the C++ code recorded in the comments of the model.
* The meaning given to libphysica functions (listed in `lean/Verif/Model/Libphysica.lean`).

## Plan per property

| id | what is modelled, how it is proved |
|----|------------------------------------|
| C01 | particle state machine (DM_Particle_Standard); algebra with sqrt, invariant `prefactor>0` and `fp_rel, fn_rel` not both 0 over all histories |
| C02 | same machine; invariant `fn_rel*fp = fp_rel*fn` when fixed |
| C03 | invariant by induction over histories that avoid the defective branch; negation witnessed by a concrete history |
| C04 | algebra; negation for ratio (0,1) applied twice |
| C05 | restored state equals the old one up to a common sign of the couplings; observables are even; negation for unfixed couplings of opposite sign |
| C06 | closed form vs. `∫` (interval integral, FTC) |
| C07 | same |
| C08 | closed forms; `HasDerivAt`, algebra |
| C09 | Helm form factor over ℝ; `|3 j1(x)/x| ≤ 1` by monotonicity/derivatives |
| C10 | algebra |
| C11 | algebra |
| C12 | algebra on `sqrt` |
| C13 | AM-GM and the quadratic formula |
| C14 | inequalities |
| C15 | case analysis on the closed form; negations witnessed (v_obs > v_esc; default constructor) |
| C16 | erf defined as an integral; FTC on both branches and continuity at the seam |
| C17 | same, derivative of eta is -f/v; error bound inside the numerical windows from the Lipschitz constant of the Gaussian (`C17_accuracy`) |
| C18 | invariant by induction over setter histories |
| C19 | invariant for PDF/CDF, negation for eta (stale table) |
| C20 | algebra |
| C21 | angular integral in spherical coordinates |
| C22 | contract on Integrate; arbitrary PDF |
| C23 | 3x3 matrices, sin²+cos²=1 |
| C24 | floor arithmetic over ℤ/ℚ, all years; negation at 2100-02-28 |
| C25 | C `fmod`; range theorem and negation |
| C26 | trigonometric identity |
| C27 | detector state machine, induction over op lists |
| C28 | 32-bit signed accumulation vs. exact sum; negation beyond 2^31 |
| C29 | Poisson CDF as finite sum, derivative; maximum gap: adding an event to a Poisson process only splits gaps |
| C30 | monotonicity + root contract (exact, or a bracket of finite width); for maximum gaps: volumes of point sets without large gaps, mixed with Poisson weights |
| C31 | detector × particle state machine |
| C32 | homogeneity of the signal; negation for unfixed ratio |
| C33 | induction over the mass list |
| C34 | maximality of x log y - y |
| C35 | induction over lists |
| C36 | UB/NaN outcomes explicit; closed formula properties |
| C37 | telescoping over a linear grid, additive integrator contract |
| C38 | flag machine; negations |
| C39 | list induction |
| C40 | rate model with integrator contract |
| C41 | kinematics lemma C12 lifted to the detector; negations |
| C42 | eta contract; for eta functions that are not exact (the standard halo near the maximum speed), the rate is proved monotone in the eta function and lies between the textbook rates of two densities of speeds |
| C43 | floor Galois connection |
| C44 | telescoping of the integer energy grid |
| C45 | list indexing with UB; iff theorem |
| C46 | algebra; negations for electron recoil, Migdal, crystal |
| C47 | binomial theorem |
| C48 | list indexing with UB |
| C49 | case analysis; negation for m = n |
| C50 | kinematics C13 lifted through shells |
| C51 | induction over the data table; the shipped table evaluated by the kernel |
| C52 | string dispatch |
| C53 | particle machine |
| C54 | abstract file system as a map |
| C55 | string dispatch |
| C56 | instantiation of the detector machine |
| C57 | index arithmetic |
| C58 | change of variables in the interval integral |
| C59 | Gaussian integrals in spherical coordinates; erf/erfi closed forms |
| C60 | the shipped table evaluated by the kernel; negation for six elements |
| C61 | list induction over imports; negation for repeated single imports |
| C62 | frame conditions by case analysis on the interaction; `Spec/LowMass` names the searches that the low-mass mode does not concern: there cross sections, hence rates and signals agree, and C87 compares the limits |
| C63 | completing the square in the momentum transfer |
| C64 | homogeneity of sums and integrals |
| C65 | exchange of finite sums; binomial theorem |
| C66 | case analysis on the table boundaries; interpolation contract at the nodes |
| C67 | unfolding the threshold branch; negation for ionization detectors, which ignore the upper end |
| C68 | signs of products, sums and integrals, for every eta function that is not negative |
| C69 | evaluation of the reading functions; C16, C17, C20–C22 for the object; zonal integral for the cut Maxwell distribution |
| C70 | evaluation of the reading functions; induction over the list of targets |
| C71 | the constructor as a chain of partial operations; equivalence by inversion of the chain |
| C72 | spherical coordinates on ℝ³ (iterated integrals against Lebesgue measure); translation and reflection invariance |
| C73 | list equality for the rows; interpolation contract at the nodes for the way back; negation for the logarithmic scale of halo models |
| C74 | the program as a chain of partial operations on a file system; frame lemmas for each write; C33 for the content of the table |
| C75 | C68 for each configured detector, with the signs of form factors and isotopes from those in the data files |
| C76 | C53, C69, C70 and C75 for the objects, C74 for the program, C30 for the limits; negation for nuclear recoils with light mediators |
| C77 | linearity of sums and integrals in the rate of one isotope; negation for the detectors of electrons |
| C78 | the derived class as a record of arbitrary functions; change of variables q² ↦ cos α for the density, fundamental theorem for the distribution; negation for a vanishing cross section |
| C79 | induction over the list of calls: a data call changes four members that no prediction reads |
| C80 | branch by branch through the signal functions of the four classes, homogeneity of the integrator; induction over the calls for histories |
| C81 | invariants over the histories of the three detector classes (lengths of the bin vectors, kind of bins in use, initialised flags); case analysis over `Construct_DM_Detector` for configured detectors |
| C82 | each line of the summary is located in the list of printed entries; rows of tables by the loop lemma |
| C83 | sums over a one-element list; a mixture of equal masses by congruence, bounds by the extreme mass ratios; negations for natural isotopes and unequal masses |
| C84 | unfolding of the constructors with the lookup lemma C51; induction over the list of atoms; negations for the three classes without a region of interest |
| C85 | the two programs in `examples/` as functions of the installation; signals defined and not negative from C68 (eta function only), limits from C30 with `cdfPoisson s 0 = exp (-s)`, rates from C42/C17 transported from the default halo to the standard halo |
| C86 | formatted input as functions on character lists; a grammar as specification; reading is exact on the grammar and characterised on every prefix of a file; the shipped file evaluated line by line by the kernel and glued with a locality lemma |
| C87 | the limit as the unique solution of an equation between the p-value and the certainty; trends from strict monotonicity of the probability of at most n events in its mean; proportionality from that of the signal |
| C88 | every operation followed by an arbitrary rounding to nearest; the number of rounding errors counted by induction over histories; integers and halves below 2^53 are exact |
| C89 | the sum in the constructor with roundings; negation by the exact double values of four percentages |
| C90 | sums and minima over components are invariant under permutation (`Lemmas/Composition.lean`); equality of all functions of the detector, for ionization whenever they return a value |
| C91 | sums over subsets and integrals over parts of an interval of rates that are not negative (C68); with a finite resolution also the cut on true energies, three standard deviations below the threshold, moves in the right direction |
| C92 | exchange of the sum over components with sums over electrons and integrals over energies; each component is a detector built by the same constructor from that component alone |
| C93 | the density enters each rate as a factor (flux or prefactor of eta), which is moved through the integrals, sums over targets and bins; limits by comparing two experiments with the same data (C87_comparison) |
| C94 | triangle inequality with C26; for June and December the Sun's velocity is bounded along the ecliptic axes (all rotation angles within a century of the epoch) and the mean longitude by the calendar |
| C95 | the attained maximum and minimum of C41 (`depositLoop_spec`, `massLoop_spec`) compared isotope by isotope; the seasons with C94 |
| C96 | the cross section of a point is a falling function of the energy over v²; eta (or its integral) falls with the minimal speed (C12, C17); bins shifted onto each other |
| C97 | C03 gives the ratio, the amplitude is a linear form; loops of C41 by induction over the isotopes |
| C98 | the form factor is the only part of the cross section that changes; the factor is ordered on both sides of the reference momentum; with an energy resolution the order is kept by the integral with the Gaussian; C87 compares the limits; choosing the force and setting the mass commute, which gives the limit curves (C33) |
| C99 | a reachable standard halo is determined by its parameters (C18); integrals over directions are invariant under rotations (`dirs_turn`) |
| C100 | `Set_Mass` keeps the cross sections and divides the couplings by the reduced mass with the proton; the minimal speed falls with the mass, so the integral over the halo grows; sums, smearing, bins and roots of a falling p-value keep the order |
| C101 | as C100, with the reduced mass with the electron; term by term in the sum over the tabulated momenta, then sums over energies, bins, integrals over energies and limits (C87) |
| C102 | the curve is characterised by the limits at the single masses (C31, C33), which do not depend on what was computed before; pieces by induction over the list of pieces; sorted lists with the same entries are equal |
| C103 | the loop of `main` that prints the limits (`Model/Terminal`); by induction over the rows, together with C74 for what is written |
| C104 | `Spec/Dimension` says how each quantity changes when energies are expressed in another unit; every function of the model is shown to commute with this change: calls by induction over histories, sums by induction over lists, integrals by substitution; limits by comparing the two experiments (C87); `Spec/DimensionProgram` and `Props/DimensionProgram` do the same for all predefined experiments, the other distributions and everything a configuration file can describe |
| C105 | `Model/Warnings`: the same functions with the flags `have_warned` and what is printed; induction over sequences of calls with the flags as state; negations for copies of shells and for crystals |
| C106 | `Spec/BestFit`: what `Log_Likelihood` gives after the interaction parameter was set; the signal is proportional to it (C40, C64), so that the shape follows from that of `n log μ - μ`: strict inequalities from `log x < x - 1`, concavity of every bin, sums over all bins |
| C107 | `Spec/MoreBins`: when an analysis has the bins of another one and more, when it counts the events of a single bin; from the values of p-values (C29) and limits (C87), a minimum over more bins is smaller; the signals of electron bins and Q-bins as lists over the numbers of quanta, compared with the sums over windows (C44, C49) |
| C108 | `Spec/MissingFiles`: the data files, the installation without one of them, and the files of every predefined search; the relation "ended or unchanged" between outcomes goes through every step of the construction of a detector, and success requires every file that is read |
| C109 | `Spec/Coverage`: the observed events as random numbers with Mathlib's Poisson measure (independent in every bin); the p-value of the data below a level is an initial segment of the counts, whose probability is the p-value at its end; with bins the complement is a product |
| C110 | `Spec/Session`: the calls that look up nuclear data, programs as lists of calls that hand on the global table, and a call in a process of its own; a relation between outcomes (equal up to a table that is empty or that of the file) goes through every constructor, then induction on the program |
| C111 | the rate times the mass factor of C100 rises with the mass (C100) and is bounded: the form factors by their values at the threshold, the mean inverse speed by its value at the smallest speed an infinitely heavy particle needs; so it converges. Limits are compared with the limit at one mass (C87) |
| C112 | `Spec/Spin`: isotopes with spin data, and the target with all others taken out; an inactive isotope contributes zero to the sums of the rate (C97) and is skipped by the loops over isotopes, so both targets agree; the shipped table is checked row by row by the kernel |
| C113 | the rate times mass and squared reduced mass rises (C101) and is bounded by the mean inverse speed above energy over momentum, so it converges; limits follow because the same number of events is excluded at every mass (C87) |
| C114 | `Spec/Quadrature`: the integrals and the total variation; the error in each cell of the grid is at most its weight times the variation inside, and variations of adjacent cells add up; the first point of the logarithmic grid contributes nothing since the energy cannot be transferred there |
| C115 | `Spec/Sampling`: the probability of an event is the measure of the random numbers in `[0,1]` for which it happens; by C08 and C78 the sampler inverts the CDF, so an interval of angles corresponds to an interval of random numbers whose length is the integral of the PDF; recoil energies by substitution; histograms and averages by the strong law of large numbers of Mathlib |
| C116 | `Spec/Continuity`: a result is defined on a set and depends continuously on its argument; the density of speeds is one continuous formula composed with clamps, spectra are products of a continuous cross section and the tail of an integral (C42), events in semiconductors are finite sums (C44), the limit is the quotient of limits at one mass and the events (C87), and events in energy bins are integrals of continuous spectra dominated on each compact range of masses |
| C117 | `Spec/HaloComparison`: one halo holds at most `k` times the particles of another one at every speed; cross sections fall with the square of the speed, so every rate is a sum of terms proportional to the mean inverse speed above a minimal speed, which is compared by monotonicity of integrals; limits by C87; standard halos by their explicit density of speeds |
| C118 | `Spec/HaloMixture`: the density of particles at every speed and the mean inverse speed above every speed are combinations of those of two halos; every rate is a sum or integral of terms linear in these, so linearity is carried through the sums over isotopes, grid points, shells and bins (`OkMix`); limits by C87; the SHM++ by C20 |
| C119 | the smeared spectrum is an integral over true energies with a Gaussian kernel cut at six standard deviations; the order of the integrals over true and observed energies is exchanged (Fubini), the kernel integrates to at most one over observed energies, and to at least `1 - exp (-18)` if all energies within six standard deviations are in the window; event numbers by C37 |
| C120 | `Spec/PointNuclei` gives a third of the mean square radius; `3 j₁(x)/x ≥ 1 - x²/10` from the derivatives of sine and cosine, so the square of the form factor is at least `1 - q² ⟨r²⟩/3`, and at most one (C09); rates are linear in it, bins by C37 and limits by C87; on limit curves (C33) setting the mass commutes with the mode |
| C121 | `Spec/Targets` lists the calls that concern one target; by induction over the calls they only change fields that the rates of the other target do not read; C87 compares the limits |

Status and deviations are recorded in `MANIFEST.json` and in the section "Findings" below.

## Findings (disagreements between the code and the property)

Each line names the theorem that proves the disagreement on the model (a concrete witness or a general negation) and the code
responsible. The guarded form that does hold is the `_partial` theorem of the same property.

| property | what goes wrong | theorem | code |
|----|----|----|----|
| C02, C03 | with no proton coupling, fixing a ratio multiplies the zero coupling; the requested ratio is not obtained, and a later `Set_Mass` erases the neutron coupling too | `C03_fails`, `C02_fails_after_C03` | `DM_Particle_Standard.cpp:149,166,185` (`fp` for `fn`) |
| C02, C05, C31 | for unfixed couplings of opposite sign the setters go through cross sections and lose the relative sign | `C02_fails_relative_sign`, `C05_fails`, `C31_fails_relative_sign` | `DM_Particle_Standard.cpp:28-95` |
| C04 | `Fix_Coupling_Ratio(0,b)` or `(a,0)` twice erases all couplings | `C04_fails` | `DM_Particle_Standard.cpp:136-145` |
| C15, C21, C69 | observer faster than the escape speed: negative speed PDF below `v_obs - v_esc`, where no direction carries probability | `C15_fails`, `C21_fails`, `C69_fails_fast_observer` | `DM_Halo_Models.cpp:74-105` |
| C15, C18 | default constructor rounds the maximal speed: negative PDF at the end, and setting the current observer velocity changes the model | `C15_fails_default`, `C18_fails_default` | `DM_Halo_Models.cpp:18-25` |
| C17 | `Eta_Function` is 0 in the last `1e-8 v_0`, and uses the rest formula for very slow observers | `C17_window`, `C17_fails_window`, `C17_fails_slow_observer` | `DM_Halo_Models.cpp:141,143` |
| C19 | SHM++ setters inherited from SHM do not rebuild the table of eta | `C19_fails`, `C19_eta_stale` | `DM_Halo_Models.cpp:243-300` |
| C24 | the Julian leap-year rule: 1 March 2100 is two days after 28 February 2100 | `C24_fails` | `Astronomy.cpp:68-82` |
| C25 | sidereal time is negative before J2000.0 | `C25_fails` | `Astronomy.cpp` (`fmod` without correction) |
| C27 | `Use_Maximum_Gap` on an empty list reads its first element | `C27_fails` | `Direct_Detection.cpp` `Use_Maximum_Gap` |
| C28 | total of observed events accumulated in `int` | `C28_fails` | `Direct_Detection.cpp:197` |
| C29 | binned analysis with zero bins dereferences `end()` | `C29_fails_without_bins` | `Direct_Detection.cpp:115` |
| C30, C32 | a particle of coupling zero: division by zero; a background whose p-value is exactly `1 - CL`: a "limit" without signal | `C30_fails_zero_coupling`, `C32_fails_zero_coupling`, `C30_fails_flat` | `Direct_Detection.cpp` `Upper_Limit` |
| C32 | p-values found by rescaling are wrong for unfixed ratios | `C32_fails_unfixed` | `Direct_Detection.cpp` `P_Value`, signal rescaling |
| C34 | nothing expected and nothing observed: `log 0` | `C34_fails_nothing_expected` | `Direct_Detection.cpp` log-likelihood |
| C36 | division by zero for equal gaps; `end()` dereferenced for one event | `C36_fails_equal_gaps`, `C36_fails_single_event`, `C36_fails_p_value_equal_gaps` | `Direct_Detection.cpp:250-310` |
| C38, C50 | flags of earlier modes are not reset; the crystal flags start uninitialised | `C38_fails_…`, `C50_fails_…` | `Direct_Detection_Crystal.cpp:131-209`, `Direct_Detection_Ionization.cpp:131-212` |
| C39 | stoichiometric ratios with sum ≤ 1 are taken for mass fractions | `C39_fails` | `Direct_Detection_Nucleus.cpp:57-72` |
| C40 | limits of the resolution integral in wrong order far below threshold: negative rate | `C40_fails_below_threshold` | `Direct_Detection_Nucleus.cpp:150-175` |
| C41 | `Minimum_DM_Mass` negative; empty range for SD on spinless targets; resolution window 2σ against 3σ/6σ in the rate | `C41_fails_…` | `Direct_Detection_Nucleus.cpp:91-104` |
| C42 | tabulated distributions end the program for speeds below the first entry | `C42_fails_imported` | `DM_Distribution.cpp:191-225` |
| C45 | bin efficiency looked up at `Q - 1` instead of `Q - Q_threshold`; bins wrap around | `C45_fails_…` | `Direct_Detection_Crystal.cpp:183-209` |
| C46 | rates on electrons and crystals and the Migdal rates ignore `Set_Fractional_Density` | `C46_fails_crystal`, `C46_fails_ionization` | `Direct_Detection_Crystal.cpp`, `_ER.cpp`, `_Migdal.cpp` |
| C48, C56 | 99 electron rates are computed, 100 are read: XENON10/XENON100 read out of bounds | `C48_fails_…`, `C56_fails_photoelectrons` | `Direct_Detection_Ionization.cpp:61-98` |
| C49 | `Use_Electron_Threshold(n, n)` counts up to 100 | `C49_fails_single` | `Direct_Detection_Ionization.cpp:264-285` |
| C52 | `Atom("Xenon")`, `Atom("Argon")` end the program | `C52_fails_long_names` | `Target_Atom.cpp` constructor |
| C53 | relative couplings of sum zero give non-finite couplings; the nucleon cross section may be that of the neutron | `C53_fails_isovector`, `C53_particle_partial` | `Configuration.cpp:297-310` |
| C54 | IDs with `../` write elsewhere; reading the copy of a run destroys it | `C54_fails_traversal`, `C54_fails_alias` | `Configuration.cpp:60-125` |
| C55 | LZ is offered but exits; Migdal experiments carry the name of the electron search | `C55_fails_LZ`, `C55_fails_migdal_names` | `Experiments.cpp`, `Configuration.cpp` |
| C56 | the silicon table is not shipped | `C56_fails_missing_silicon` | `data/Semiconductors` |
| C60 | abundances of six elements do not add up to one | `C60_fails` | `data/Nuclear_Data.txt` |
| C61 | a second import of a single efficiency table disables all tables | `C61_fails_second_table` | `Direct_Detection_Nucleus.cpp` |
| C67 | ionization detectors ignore the upper end of the energy window | `C67_fails_ionization` | `Direct_Detection_Ionization.cpp:172-186` |
| C72 | a distribution that only defines `PDF_Speed` (imported tables) has average velocity zero, whatever the observer | `C72_imported` | `DM_Distribution.hpp:32-34`, `DM_Distribution.cpp:80-91` |
| C73 | the logarithmic scale of the export functions takes `log 0`: the domain of the halo models starts at speed 0 | `C73_fails_log_scale` | `DM_Distribution.cpp:166,175`, `DM_Halo_Models.cpp:18-60` |
| C74 | started without argument the program builds a string from a null pointer; all certainties from 99.5 % share the file `DD_Constraints_100.txt`, so that limits of one run are overwritten by those of another; absurd certainties overflow the conversion to `int` | `C74_fails_no_argument`, `C74_fails_shared_name`, `C74_fails_percentage` | `main.cpp:31,42,43` |
| C75 | a nuclear recoil detector with threshold zero predicts no number of events: the grid of energies is logarithmic | `C75_fails_zero_threshold` | `Direct_Detection.cpp:314-334` |
| C76 | a nuclear recoil run with the form factor "Electric-Dipole" or "Long-Range" always stops the program: `Minimum_DM_Mass` asks for a total cross section that does not exist | `C76_fails_light_mediator` | `Direct_Detection_Nucleus.cpp:91-105`, `DM_Particle_Standard.cpp:325-330` |
| C77 | `DM_fraction` has no effect on electron recoil, Migdal and semiconductor detectors; their limits are too strong by this factor | `C77_fails_electrons`, `C77_fails_electrons_p_value` | `Direct_Detection_ER.cpp:13-51`, `Direct_Detection_Migdal.cpp:19-58`, `Direct_Detection_Crystal.cpp:30-60` |
| C38 | ionization detectors ignore `Use_Maximum_Gap` in `DM_Signals_Total`: a new detector predicts zero events | `C38_fails_ionization_maximum_gap` | `Direct_Detection_Ionization.cpp` `DM_Signals_Total` |
| C78 | for a particle that does not scatter the angle PDF is zero everywhere while the CDF still reaches one | `C78_fails_no_scattering` | `DM_Particle.cpp` `PDF_Scattering_Angle_Nucleus_Base` |
| C81 | `Print_Summary` of a crystal detector reads `using_Q_threshold`, which no constructor initialises: undefined for all six predefined semiconductor experiments, and `main` prints the summary before it computes | `C81_fails_no_q_threshold`, `C81_fails_experiments`, `C81_fails_runs` | `Direct_Detection_Crystal.cpp:100-108,221`, `Direct_Detection_Crystal.hpp:30`, `main.cpp:32` |
| C81 | flags of earlier bins stay set: energy or photoelectron bins followed by more electron bins are printed beyond the end of the old list | `C81_fails_energy_then_electrons`, `C81_fails_photoelectrons_then_electrons` | `Direct_Detection.cpp:494-501`, `Direct_Detection_Ionization.cpp:404-410` |
| C81 | with fewer abundances than nuclei the summary reads beyond the end of the list | `C81_fails_few_abundances` | `Direct_Detection_Nucleus.cpp:57-72,200-203` |
| C81 | ionization and crystal detectors print on every process: `MPI_rank` is ignored | `C81_fails_every_process` | `Direct_Detection_Ionization.cpp:387-389`, `Direct_Detection_Crystal.cpp:215-217` |
| C81 | a `Configuration` made without arguments prints through null pointers and uninitialised numbers until every public member is assigned | `C81_fails_incomplete`, `C81_fails_parameters` | `Configuration.cpp:25-28,120-126`, `Configuration.hpp:43-51` |
| C82 | after `Use_Energy_Bins` and `Use_Energy_Threshold` the summary announces a Poisson analysis and lists the ranges of the old bins | `C82_fails_stale_bins` | `Direct_Detection.cpp:419-430,494-501` |
| C83 | `Nucleus(iso)` of a natural isotope has mean mass and rate multiplied by the natural abundance | `C83_fails_natural_abundance` | `Target_Nucleus.cpp:79-83` |
| C83 | `Nucleus(iso)` leaves the charge uninitialised | `C83_fails_charge` | `Target_Nucleus.cpp:79-83` |
| C83 | the rates per mass of the isotopes of an element are weighted with shares by number instead of shares by mass | `C83_fails_mixture` | `Direct_Detection_Nucleus.cpp:38-45` |
| C84 | a detector without a region of interest predicts nan (nuclear), zero (ionization) or reads an uninitialised flag (crystal) instead of reporting an error | `C84_fails_nuclear`, `C84_fails_ionization`, `C84_fails_crystal` | `Direct_Detection.cpp` `DM_Signals_Total_Base`, `Direct_Detection_Ionization.cpp` `DM_Signals_Total`, `Direct_Detection_Crystal.cpp` `DM_Signals_Total` |
| C70 | an empty `DD_targets_nuclear`, or one that is not a list, is accepted: a detector without nuclei, in which nothing gives a signal and every limit is undefined behaviour | `C70_fails_no_targets` | `Configuration.cpp:541-560` |
| C86 | a damaged nuclear data file is used without a message: a malformed row hides the rest, a cut number is taken as it is, lookups behind the cut are undefined behaviour | `C86_fails_malformed_row`, `C86_fails_cut_number`, `C86_cut_file_partial` | `Target_Nucleus.cpp:150-161,180` |
| C89 | mass shares of 56, 4, 17 and 23 percent add up to 1.0000000000000002 in double arithmetic and are taken for numbers of atoms | `C89_fails_shares` | `Direct_Detection_Nucleus.cpp:57-58` |
| C90 | a component listed with the share zero lowers the smallest mass the detector claims to be sensitive to | `C90_fails_zero_share` | `Direct_Detection_Nucleus.cpp:91-105` |
| C91 | the window from n to n electrons predicts more events than the one from n to n+1, because an upper end that is not above the lower one is replaced by 100 | `C91_fails_electrons` | `Direct_Detection_Ionization.cpp:268-282` |
| C97 | `Minimum_DM_Mass` of a detector whose isotopes all have cancelling couplings dereferences the minimum of an empty list | `C97_fails_minimum_mass` | `Direct_Detection_Nucleus.cpp:91-105` |
| C104 | the limit is searched between 10⁻³⁰ and 10¹⁰ in internal units, and the search for the smallest binding energy and work function starts from the plain numbers 1 and 10¹⁰: in other units limits are missed and the smallest detectable mass of ionization detectors is wrong; the smallest mediator mass is the plain number 10⁻⁶⁰, and the mass range of the limits, announced in GeV, is used without its unit | `C104_fails_limit`, `C104_fails_minimum`, `C104_fails_mediator`, `C104_fails_mass_range` | `Direct_Detection.cpp:371-397`, `Target_Atom.cpp:156-165`, `Direct_Detection_Ionization.cpp:15-31`, `Configuration.cpp:245,789,799`, `main.cpp:34` |
| C105 | `Electron(n, l)` returns a copy of the shell, so that its warning is printed at every call although it says it will not be repeated; the flag of the crystals is shared by all of them, so that after one warning no other crystal is reported, and zeros within a millionth of the limits are never reported | `C105_fails_copies`, `C105_fails_other_crystal`, `C105_fails_margin` | `Target_Atom.cpp:167-176`, `Target_Crystal.cpp:57-73` |
| C106 | with an expected background between 0 and 10⁻⁴ in a bin, the fitted background is replaced by the given one where the prediction reaches the observed number, with a jump of the likelihood: in two bins it can have two separate peaks | `C106_fails_tiny_background` | `Log_Likelihood`, `src/Direct_Detection.cpp:28,37` |
| C109 | the p-value of a binned analysis is the smallest of the bins, not corrected for their number: two or more bins exclude the truth more often than one minus the certainty level | `C109_fails_bins`, `C109_fails_bins_limit` | src/Direct_Detection.cpp:109-115 |
| C112 | `Minimum_DM_Mass` takes the minimum of an empty list if the particle passes through all isotopes: spin-dependent limits with argon, or any other of 45 elements of the shipped table, end in undefined behaviour | `C112_fails_curve`, `C112_fails_run`, `C112_shipped` | src/Direct_Detection_Nucleus.cpp:91-105, src/Direct_Detection.cpp:399-402 |
| C114 | `R_ne` adds all `N` points of a logarithmic grid with `N - 1` steps, each with the weight of a full step: a spectrum that is constant along the grid is overestimated by the factor `N/(N-1)` | `C114_fails_electrons` | src/Direct_Detection_Ionization.cpp:243-246, src/Target_Atom.cpp:22-39 |
| C116 | spectra jump where `Eta_Function` is cut off, where the formula of the form factor begins (momentum transfers of `1e-6 MeV`) and at the end of the table of semiconductors | `C116_fails_eta`, `C116_fails_form_factor`, `C116_fails_table_end` | src/DM_Halo_Models.cpp:141, src/Target_Nucleus.cpp:51, src/Direct_Detection_Crystal.cpp:32 |
| C119 | with a finite resolution, true recoil energies below 2σ are left out of the convolution, so recoils above the threshold but below 2σ are never seen | `C119_fails_small_recoils`, `C119_blind` | `Direct_Detection_Nucleus.cpp:149-151` |

Observations that are not violations of a listed property: `constraints_mass_min` and `constraints_mass_max` are documented in GeV but
not multiplied by the unit (`Configuration.cpp:790-803`; harmless only because GeV = 1 in libphysica); `Nucleus(const Isotope&)`
leaves the charge uninitialised (modelled by `Z := none`).

## What is modelled and what is not

Modelled, function by function: `DM_Particle_Standard.cpp` (spin-independent and spin-dependent particles, all setters and cross
sections), the base class of `DM_Particle.cpp` with arbitrary derived classes, `DM_Halo_Models.cpp`, `DM_Distribution.cpp`, `Astronomy.cpp`,
`Target_Nucleus.cpp` with the shipped nuclear table, `Target_Atom.cpp`, `Target_Crystal.cpp`, `Direct_Detection*.cpp` with all detector
classes and statistics, `Experiments.cpp`, `Configuration.cpp`, `main.cpp` as a function from file systems to file systems, and the two
programs in `examples/`.

Not modelled: the format of printed numbers, progress bars and error messages, MPI beyond the rank number, the libconfig parser and the text format of data
files other than `Nuclear_Data.txt` (read by libphysica; their *contents* are parameters), the numerical algorithms of libphysica (parameters with contracts), floating-point rounding.
