{"id": "C01", "title": "Reading a cross section returns what was set", "statement": "After Set_Sigma_Proton(s), Set_Sigma_Neutron(s), Set_Sigma_Electron(s) or Set_Interaction_Parameter(s, target) on a DM_Particle_SI/SD the matching getter returns exactly s (whenever the addressed nucleon has a non-zero relative coupling), and with a fixed coupling ratio the other nucleon's cross section is s times the squared ratio.", "quantifier": "every reachable particle state (any history of public calls), every s >= 0, every positive DM mass, both targets", "why_tests_cant": "tests sample a few values on freshly built particles; the claim ranges over all histories and all real s", "anchors": ["src/DM_Particle_Standard.cpp: Set_Sigma_Proton, Set_Sigma_Neutron, Set_Sigma_Electron, Set_Interaction_Parameter, Get_Interaction_Parameter, Sigma_Proton, Sigma_Neutron, Sigma_Electron"]}
{"id": "C02", "title": "Changing the DM mass keeps the cross sections", "statement": "Set_Mass(m) sets the mass to m and leaves Sigma_Proton, Sigma_Neutron and Sigma_Electron at the values they had before.", "quantifier": "every reachable particle state, every m > 0, coupling ratio fixed or not", "why_tests_cant": "needs the relation between the couplings that only holds inductively over the call history", "anchors": ["src/DM_Particle_Standard.cpp: DM_Particle_Standard::Set_Mass"]}
{"id": "C03", "title": "A fixed coupling ratio is honoured", "statement": "Whenever the couplings are fixed, fp : fn equals the ratio requested by the last Fix_Coupling_Ratio / Fix_fn_over_fp / Fix_fp_over_fn call, after any further history of setters.", "quantifier": "every sequence of public calls from construction", "why_tests_cant": "an invariant over unbounded call sequences; the violating sequences need three specific calls", "anchors": ["src/DM_Particle_Standard.cpp: Fix_Coupling_Ratio, Fix_fn_over_fp, Fix_fp_over_fn"]}
{"id": "C04", "title": "Fixing the same coupling ratio twice is the same as fixing it once", "statement": "Calling Fix_Coupling_Ratio (or one of its two variants) again with the same arguments changes nothing, and never erases a non-zero interaction.", "quantifier": "every reachable particle state and every pair of ratio arguments with non-zero sum", "why_tests_cant": "universally quantified over states and ratios; the failing corner is a repeated call with a zero ratio", "anchors": ["src/DM_Particle_Standard.cpp: Fix_Coupling_Ratio"]}
{"id": "C05", "title": "Saving and restoring the interaction parameter is invisible", "statement": "x = Get_Interaction_Parameter(t); Set_Interaction_Parameter(anything, t); Set_Interaction_Parameter(x, t) leaves every cross section (differential and total, on every isotope and on electrons) as it was.", "quantifier": "every reachable particle state, every intermediate value, every isotope, momentum transfer and speed", "why_tests_cant": "the sign lost by the square root matters only for some histories and isotopes", "anchors": ["src/DM_Particle_Standard.cpp: Get_Interaction_Parameter, Set_Interaction_Parameter", "src/Direct_Detection.cpp: Upper_Limit, Log_Likelihood_Scan"]}
{"id": "C06", "title": "SI total cross section is the integral of the differential one", "statement": "In the low-mass regime Sigma_Total_Nucleus / Sigma_Total_Electron of a DM_Particle_SI equals the integral of dSigma/dq2 over the kinematically allowed range 0..4 mu^2 v^2, for every DM form factor for which it is finite; the divergent form factors are rejected with an error.", "quantifier": "every mass, coupling, isotope, speed > 0, mediator mass > 0 and reference momentum", "why_tests_cant": "an identity between an analytic formula and an integral for all real parameters", "anchors": ["src/DM_Particle_Standard.cpp: DM_Particle_SI::dSigma_dq2_Nucleus, FormFactor2_DM, Sigma_Total_Nucleus, Sigma_Total_Electron"]}
{"id": "C07", "title": "SD total cross section is the integral of the differential one", "statement": "Sigma_Total_Nucleus of a DM_Particle_SD in the low-mass regime equals the integral of dSigma/dq2 over 0..4 mu^2 v^2; isotopes without spin have zero cross section.", "quantifier": "every mass, coupling, isotope (any spin) and speed > 0", "why_tests_cant": "identity over all real parameters", "anchors": ["src/DM_Particle_Standard.cpp: DM_Particle_SD::dSigma_dq2_Nucleus, Sigma_Total_Nucleus"]}
{"id": "C08", "title": "SI scattering angles: PDF, CDF and sampling agree", "statement": "In the low-mass regime the PDF of cos(alpha) is non-negative, integrates to one on [-1,1], is the derivative of the CDF, the CDF runs from 0 to 1, and the sampled cos(alpha) for a uniform xi lies in [-1,1] and has CDF equal to xi (so the sample has exactly the stated distribution).", "quantifier": "every DM/target mass, speed > 0, mediator mass > 0, cos(alpha) in [-1,1], xi in [0,1]", "why_tests_cant": "statistical tests only see finitely many samples with tolerance", "anchors": ["src/DM_Particle_Standard.cpp: DM_Particle_SI::PDF_Scattering_Angle_Nucleus, CDF_Scattering_Angle_Nucleus, Sample_Scattering_Angle_Nucleus (and _Electron)", "src/DM_Particle.cpp"]}
{"id": "C09", "title": "Nuclear form factor never enhances a cross section", "statement": "The Helm form factor is 1 at q=0, is well defined for every isotope, and its square never exceeds 1, so the differential SI cross section never exceeds its point-like value.", "quantifier": "every isotope with A >= 1 and every momentum transfer q >= 0", "why_tests_cant": "a bound over a continuous range", "anchors": ["src/Target_Nucleus.cpp: Isotope::Helm_Form_Factor", "src/DM_Particle_Standard.cpp: dSigma_dq2_Nucleus"]}
{"id": "C10", "title": "DM form factor is normalised at the reference momentum", "statement": "FormFactor2_DM equals 1 at q = qRef for every form factor, is non-negative, does not increase with q, and the massive-mediator form factor tends between contact and long-range.", "quantifier": "every form factor option, q > 0, qRef > 0, mediator mass", "why_tests_cant": "quantified over reals", "anchors": ["src/DM_Particle_Standard.cpp: DM_Particle_SI::FormFactor2_DM, Set_FormFactor_DM"]}
{"id": "C11", "title": "Total cross section on hydrogen is the proton cross section", "statement": "For a target isotope with Z = A = 1, nucleon mass and (SD) spin 1/2 carried by the proton, Sigma_Total_Nucleus = Sigma_Proton() both for SI and SD particles.", "quantifier": "every reachable particle state in the low-mass contact regime, every speed > 0", "why_tests_cant": "normalisation law for all states", "anchors": ["src/DM_Particle_Standard.cpp: Sigma_Proton, Sigma_Total_Nucleus"]}
{"id": "C12", "title": "Minimal speed and maximal recoil energy are inverse to each other", "statement": "A recoil of energy E is possible at speed v iff E <= Maximum_Nuclear_Recoil_Energy(v) iff vMinimal_Nucleus(E) <= v; both are monotone and each inverts the other.", "quantifier": "every E >= 0, v >= 0, DM mass > 0, nucleus mass > 0", "why_tests_cant": "equivalence over a continuum", "anchors": ["src/Target_Nucleus.cpp: vMinimal_Nucleus, Maximum_Nuclear_Recoil_Energy"]}
{"id": "C13", "title": "Electron-recoil momentum range is complete", "statement": "vMinimal_Electrons(q, dE, m) is never below sqrt(2 dE/m), it is at most v exactly for q between the two kinematic limits used by the ionization rate, so the momentum integration misses nothing and a DM particle with kinetic energy below the gap gives no rate.", "quantifier": "every q > 0, dE > 0, DM mass > 0, v > 0", "why_tests_cant": "needs the algebra of the quadratic for all reals", "anchors": ["src/Target_Atom.cpp: vMinimal_Electrons", "src/Direct_Detection_ER.cpp: dRdEe_Ionization_ER"]}
{"id": "C14", "title": "Migdal recoil range is complete", "statement": "Outside the recoil-energy range integrated over in the Migdal rate the required minimal speed is at least the maximal halo speed, so no contribution is lost; the Migdal minimal speed is never below the elastic one.", "quantifier": "every recoil energy, electron energy, binding energy, masses, maximal speed", "why_tests_cant": "real-quantified inequality", "anchors": ["src/Direct_Detection_Migdal.cpp: vMinimal_Migdal, dRdEe_Ionization_Migdal"]}
{"id": "C15", "title": "The halo speed PDF is non-negative and vanishes outside its domain", "statement": "PDF_Speed(v) >= 0 for every v, and = 0 outside [Minimum_DM_Speed, Maximum_DM_Speed].", "quantifier": "every Standard_Halo_Model reachable by constructor + setters, every v", "why_tests_cant": "the negative values occur only in slivers of parameter space", "anchors": ["src/DM_Halo_Models.cpp: Standard_Halo_Model::PDF_Speed, PDF_Speed_SHM"]}
{"id": "C16", "title": "The halo speed CDF is the integral of the PDF", "statement": "CDF_Speed(v) = integral of PDF_Speed from 0 to v for every v, it is non-decreasing, 0 at 0 and exactly 1 from Maximum_DM_Speed on (the distribution is normalised).", "quantifier": "every SHM parameter set with v_obs <= v_esc, every v", "why_tests_cant": "identity between closed forms and an integral over all real parameters", "anchors": ["src/DM_Halo_Models.cpp: CDF_Speed_SHM, PDF_Speed_SHM, Normalize_PDF"]}
{"id": "C17", "title": "The halo integral eta is the integral of f(v)/v", "statement": "Eta_Function(vMin) = integral of PDF_Speed(v)/v from vMin to the maximal speed, is non-increasing and vanishes above the maximal speed.", "quantifier": "every SHM parameter set with v_obs <= v_esc, every vMin >= 0", "why_tests_cant": "identity over reals, piecewise closed forms", "anchors": ["src/DM_Halo_Models.cpp: Eta_Function, Eta_Function_SHM", "src/DM_Distribution.cpp: Eta_Function_Base"]}
{"id": "C18", "title": "Halo model setters can be called in any order", "statement": "After any sequence of setters the SHM behaves exactly like one freshly constructed with the current parameters; in particular the speed domain always ends at v_esc + v_obs.", "quantifier": "every sequence of Set_Speed_Dispersion, Set_Escape_Velocity, Set_Observer_Velocity calls", "why_tests_cant": "unbounded call sequences; cached normalisation and domain", "anchors": ["src/DM_Halo_Models.cpp: Standard_Halo_Model, Set_Speed_Dispersion, Set_Escape_Velocity, Set_Observer_Velocity, Normalize_PDF"]}
{"id": "C19", "title": "SHM++ setters keep PDF, CDF and eta consistent", "statement": "After any sequence of setters an SHM++ object returns the same PDF, CDF and Eta_Function as one freshly constructed with the current parameters.", "quantifier": "every sequence of setter calls", "why_tests_cant": "unbounded call sequences; a cached interpolation table", "anchors": ["src/DM_Halo_Models.cpp: SHM_Plus_Plus::Set_*, Interpolate_Eta_Function_S, Eta_Function"]}
{"id": "C20", "title": "SHM++ interpolates between its two components", "statement": "Velocity PDF, speed PDF, speed CDF and eta of the SHM++ are the convex combination (1-eta_S) SHM + eta_S sausage; with eta_S = 0 the SHM++ is the SHM.", "quantifier": "every parameter set with 0 <= eta_S <= 1, every velocity/speed", "why_tests_cant": "universal identity", "anchors": ["src/DM_Halo_Models.cpp: SHM_Plus_Plus::PDF_Velocity, PDF_Speed, CDF_Speed, Eta_Function"]}
{"id": "C21", "title": "Speed distribution is the angular average of the velocity distribution", "statement": "PDF_Speed(v) = v^2 times the integral of PDF_Velocity over the unit sphere of directions.", "quantifier": "every SHM parameter set, every speed", "why_tests_cant": "integral identity", "anchors": ["src/DM_Halo_Models.cpp: PDF_Velocity_SHM, PDF_Speed_SHM"]}
{"id": "C22", "title": "Generic distribution interface is self-consistent", "statement": "For any speed PDF, CDF_Speed is 0 below and 1 above the domain, differential DM flux is rho/m * v * f(v), the total flux is rho/m times the average speed, and eta is 0 above the domain.", "quantifier": "every distribution (built-in or imported table), every speed and mass", "why_tests_cant": "quantified over arbitrary user-supplied tables", "anchors": ["src/DM_Distribution.cpp"]}
{"id": "C23", "title": "Coordinate transformations are rotations", "statement": "Equatorial<->galactic, heliocentric<->geocentric ecliptic transformations preserve lengths and angles, and each back-transformation undoes the forward one. The precession carries J2000.0 coordinates to those of the date by the three rotations of the standard theory; the pole of J2000.0 gets the declination and right ascension they prescribe.", "quantifier": "every vector and every time T", "why_tests_cant": "orthogonality for all angles", "anchors": ["src/Astronomy.cpp: Transform_Equat_to_Gal, Transform_Gal_to_Equat, Transform_GeoEcl_to_Gal, Transform_HelEcl_to_Gal"]}
{"id": "C24", "title": "Day count since J2000 is the calendar day count", "statement": "Fractional_Days_since_J2000 is 0 at 2000-01-01 12:00, grows by exactly 1 from each calendar day to the next and is linear in the time of day.", "quantifier": "every valid date", "why_tests_cant": "all dates across month and leap-year boundaries", "anchors": ["src/Astronomy.cpp: Fractional_Days_since_J2000"]}
{"id": "C25", "title": "Sidereal time lies within one day", "statement": "Local_Apparent_Sidereal_Time returns a time in [0, 24h).", "quantifier": "every date and longitude", "why_tests_cant": "range property over reals", "anchors": ["src/Astronomy.cpp: Local_Apparent_Sidereal_Time"]}
{"id": "C26", "title": "Earth's orbital speed stays within the eccentricity bounds", "statement": "The Earth velocity differs from the Sun's velocity by a vector of length between ve(1-e) and ve(1+e).", "quantifier": "every time", "why_tests_cant": "bound over all times", "anchors": ["src/Astronomy.cpp: Earth_Velocity"]}
{"id": "C27", "title": "Per-bin data always match the number of bins", "statement": "After any sequence of configuration calls on a detector that does not exit, in binned mode the observed events, backgrounds and efficiencies have exactly one entry per bin; calls in the wrong mode or with the wrong length exit with an error instead of corrupting state; no configuration call has undefined behaviour.", "quantifier": "every sequence of public configuration calls with every argument", "why_tests_cant": "unbounded histories", "anchors": ["src/Direct_Detection.cpp: Initialize_Poisson, Initialize_Binned_Poisson, Set_Observed_Events, Set_Expected_Background, Set_Bin_Efficiencies, Use_Energy_Threshold, Use_Energy_Bins, Use_Maximum_Gap"]}
{"id": "C28", "title": "Total observed events is the sum over the bins", "statement": "After Set_Observed_Events(vector) the total number of observed events equals the sum of the entries; likewise for backgrounds.", "quantifier": "every vector of event counts", "why_tests_cant": "arithmetic type of the accumulation only matters beyond 2^31", "anchors": ["src/Direct_Detection.cpp: Set_Observed_Events(std::vector<unsigned long int>), Set_Expected_Background(std::vector<double>)"]}
{"id": "C29", "title": "A p-value is a probability and stronger signals are less compatible", "statement": "P_Value lies in [0,1], and with Poisson or binned Poisson statistics it does not increase when the expected signal increases, strictly so for a single bin.", "quantifier": "every signal expectation >= 0, background >= 0, number of observed events and bins", "why_tests_cant": "monotonicity over reals and all counts", "anchors": ["src/Direct_Detection.cpp: P_Value"]}
{"id": "C30", "title": "The upper limit separates excluded from allowed couplings", "statement": "If Upper_Limit returns x > 0 then every coupling above x in the searched range has p-value below 1-CL and every coupling below x has a p-value above it; -1 is returned iff no such value exists in the searched range.", "quantifier": "every detector, particle, certainty level in (0,1)", "why_tests_cant": "a for-all over couplings", "anchors": ["src/Direct_Detection.cpp: Upper_Limit"]}
{"id": "C31", "title": "Computing limits and likelihood scans leaves no trace", "statement": "Upper_Limit, Upper_Limit_Curve and Log_Likelihood_Scan leave the DM particle (mass and all cross sections) and the detector as they found them.", "quantifier": "every reachable particle and detector state, every argument list", "why_tests_cant": "unbounded histories and mass lists", "anchors": ["src/Direct_Detection.cpp: Upper_Limit, Upper_Limit_Curve, Log_Likelihood_Scan"]}
{"id": "C32", "title": "The fiducial rescaling inside the limit search is exact", "statement": "The p-value computed from the rescaled fiducial spectrum equals the p-value computed directly with the DM particle set to that coupling.", "quantifier": "every coupling, every particle and detector state", "why_tests_cant": "quantified over states; fails for unfixed coupling ratios", "anchors": ["src/Direct_Detection.cpp: P_Value, Upper_Limit", "src/DM_Particle_Standard.cpp: Set_Interaction_Parameter"]}
{"id": "C33", "title": "The limit curve is a faithful selection of the mass list", "statement": "Upper_Limit_Curve returns, in the given order, exactly the masses at or above the detector's minimum mass that have a positive limit, each paired with the limit computed at that mass.", "quantifier": "every mass list", "why_tests_cant": "lists of any length and order", "anchors": ["src/Direct_Detection.cpp: Upper_Limit_Curve"]}
{"id": "C34", "title": "Without background estimate the likelihood is profiled over the background", "statement": "If no background is expected, Log_Likelihood equals the maximum over all background expectations b >= 0 of the Poisson log-likelihood; it never exceeds the maximum and otherwise uses the given background.", "quantifier": "every signal, observed count, background; every number of bins", "why_tests_cant": "optimality over all b", "anchors": ["src/Direct_Detection.cpp: Log_Likelihood"]}
{"id": "C35", "title": "A likelihood scan evaluates every grid point once, in order", "statement": "Log_Likelihood_Scan(masses, couplings) returns |masses|*|couplings| rows in mass-major order, each with the log-likelihood of that mass and coupling.", "quantifier": "all lists", "why_tests_cant": "lists of any length", "anchors": ["src/Direct_Detection.cpp: Log_Likelihood_Scan"]}
{"id": "C36", "title": "Maximum-gap p-values are well defined", "statement": "For at least two events with positive expectation the maximum-gap CDF is defined and lies in [0,1]; otherwise an error is raised.", "quantifier": "every list of event energies and every spectrum", "why_tests_cant": "all event lists; failing corners are measure-zero", "anchors": ["src/Direct_Detection.cpp: CDF_Maximum_Gap, P_Value_Maximum_Gap, Use_Maximum_Gap"]}
{"id": "C37", "title": "Energy bins partition the energy range", "statement": "With unit efficiencies the signals of the energy bins add up to the signal in the whole range, for any number of bins, and bin k covers [E_k, E_k+1] without gap or overlap.", "quantifier": "every range, number of bins and spectrum", "why_tests_cant": "any number of bins", "anchors": ["src/Direct_Detection.cpp: Use_Energy_Bins, DM_Signals_Energy_Bins"]}
{"id": "C38", "title": "The last analysis choice wins", "statement": "After Use_Energy_Threshold, Use_Energy_Bins, Use_Electron_Threshold, Use_Electron_Bins, Use_PE_Threshold, Use_PE_Bins, Use_Q_Threshold, Use_Q_Bins the signal computation uses the region chosen by the most recent call.", "quantifier": "every sequence of such calls", "why_tests_cant": "order-dependent flag interactions over all histories", "anchors": ["src/Direct_Detection.cpp", "src/Direct_Detection_Ionization.cpp: DM_Signals_Total, DM_Signals_Binned", "src/Direct_Detection_Crystal.cpp"]}
{"id": "C39", "title": "Target mass fractions are a normalised composition", "statement": "A nuclear detector built from stoichiometric ratios uses mass fractions that are non-negative, proportional to ratio times nuclear mass, and sum to one; given mass fractions are used unchanged.", "quantifier": "every list of nuclei and every ratio list of the same length", "why_tests_cant": "any number of targets", "anchors": ["src/Direct_Detection_Nucleus.cpp: DM_Detector_Nucleus", "src/Direct_Detection_Ionization.cpp: DM_Detector_Ionization"]}
{"id": "C40", "title": "Nuclear recoil rates are non-negative and linear", "statement": "dR/dE of a nuclear detector is non-negative, proportional to the cross section, the DM fraction and the DM density, and additive in the targets.", "quantifier": "every detector, particle, halo, energy", "why_tests_cant": "quantified over all inputs", "anchors": ["src/Direct_Detection_Nucleus.cpp: dRdER_Nucleus, dRdE"]}
{"id": "C41", "title": "No signal outside the kinematic range", "statement": "The nuclear recoil rate vanishes for energies above Maximum_Energy_Deposit, and below Minimum_DM_Mass no event above threshold is predicted; Minimum_DM_Mass is positive.", "quantifier": "every detector, particle, halo, energy and mass", "why_tests_cant": "all masses/targets; corner cases where the formula turns negative", "anchors": ["src/Direct_Detection_Nucleus.cpp: Maximum_Energy_Deposit, Minimum_DM_Mass, Minimum_DM_Speed"]}
{"id": "C42", "title": "Both ways to compute a nuclear rate agree", "statement": "The rate computed through the eta function equals the rate computed by integrating the differential flux times the differential cross section.", "quantifier": "every halo, SI/SD particle, isotope and recoil energy", "why_tests_cant": "identity over arbitrary distributions", "anchors": ["src/Direct_Detection_Nucleus.cpp: dRdER_Nucleus"]}
{"id": "C43", "title": "Electron-hole pairs and energies correspond", "statement": "An energy E >= gap (small enough that the number of pairs fits the return type) creates at least Q pairs iff E >= Minimum_Electron_Energy(Q); the crystal's Q_max is the number of pairs at its maximal tabulated energy.", "quantifier": "every energy and every Q", "why_tests_cant": "all reals", "anchors": ["src/Direct_Detection_Crystal.cpp: Minimum_Electron_Energy, Electron_Hole_Pairs", "src/Target_Crystal.cpp: Crystal"]}
{"id": "C44", "title": "Q-bins partition the crystal spectrum", "statement": "The sum of R_Q over consecutive Q starting at the threshold equals the total rate above the threshold minus the part above the last bin: no tabulated energy is counted twice or missed.", "quantifier": "every threshold Q >= 1 and number of bins up to 5e7, and every spectrum", "why_tests_cant": "any number of bins, any real gap/epsilon", "anchors": ["src/Direct_Detection_Crystal.cpp: R_Q_Crystal, R_total_Crystal"]}
{"id": "C45", "title": "Crystal Q-bin signals stay in bounds", "statement": "DM_Signals_Binned of a crystal detector after Use_Q_Bins(Qthr, N) reads only existing bin efficiencies and applies efficiency i to bin i.", "quantifier": "every threshold and number of bins", "why_tests_cant": "out-of-bounds reads are invisible to value tests", "anchors": ["src/Direct_Detection_Crystal.cpp: Use_Q_Bins, DM_Signals_Q_Bins"]}
{"id": "C46", "title": "Rates scale with the DM fraction", "statement": "Setting the fractional density f of a DM particle multiplies every predicted rate by f, for nuclear recoils, electron recoils, Migdal and crystals.", "quantifier": "every detector type, particle and f", "why_tests_cant": "universal linearity", "anchors": ["src/Direct_Detection_Nucleus.cpp", "src/Direct_Detection_ER.cpp", "src/Direct_Detection_Migdal.cpp", "src/Direct_Detection_Crystal.cpp"]}
{"id": "C47", "title": "Electron multiplicity is a probability distribution", "statement": "For every primary electron energy the probabilities of observing ne = 1, 2, ... electrons are non-negative and sum to 1, with nothing beyond the maximal number.", "quantifier": "every energy, fraction f_e in [0,1], work function, number of secondaries", "why_tests_cant": "sum over unbounded range", "anchors": ["src/Direct_Detection_Ionization.cpp: PDF_ne"]}
{"id": "C48", "title": "Photo-electron spectra stay in bounds", "statement": "Computing S2 rates and PE-binned signals reads only existing entries of the electron spectrum and of the efficiency tables.", "quantifier": "every detector with PE threshold or PE bins", "why_tests_cant": "out-of-bounds reads are invisible to value tests", "anchors": ["src/Direct_Detection_Ionization.cpp: R_S2, R_S2_aux, R_S2_Bin, DM_Signals_PE_Bins"]}
{"id": "C49", "title": "The electron threshold window is the requested one", "statement": "Use_Electron_Threshold(n, m) with m >= n >= 1 counts exactly ne = n..m; without m it counts n..100.", "quantifier": "every n, m", "why_tests_cant": "all arguments", "anchors": ["src/Direct_Detection_Ionization.cpp: Use_Electron_Threshold, Use_Electron_Bins, DM_Signals_Electron_Bins"]}
{"id": "C50", "title": "No ionization signal below the minimum mass", "statement": "If the DM mass is below Minimum_DM_Mass of an ionization detector the rate of events with at least the threshold number of electrons is zero.", "quantifier": "every DM mass, halo, xenon/argon detector and threshold", "why_tests_cant": "real-quantified kinematics across all shells", "anchors": ["src/Direct_Detection_Ionization.cpp: Minimum_DM_Mass, R_ne", "src/Direct_Detection_ER.cpp: dRdEe_Ionization_ER"]}
{"id": "C51", "title": "Nuclear data lookups return the requested nucleus", "statement": "Get_Nucleus(Z) returns the element with Z protons for 1 <= Z <= 92 and exits otherwise; Get_Nucleus(name) returns the element with that name; Get_Isotope(Z,A) returns an isotope with that Z and A or exits.", "quantifier": "every Z, A, name and every well-formed data file", "why_tests_cant": "quantified over all arguments; the index arithmetic relies on a data-file invariant", "anchors": ["src/Target_Nucleus.cpp: Import_Nuclear_Data, Get_Nucleus, Get_Isotope", "data/Nuclear_Data.txt"]}
{"id": "C52", "title": "Documented atom names are accepted", "statement": "Atom(name) yields the electron shells of xenon or argon for every name the constructor advertises and exits for every other name.", "quantifier": "every name", "why_tests_cant": "all strings", "anchors": ["src/Target_Atom.cpp: Atom::Atom"]}
{"id": "C53", "title": "The configured particle has the configured cross sections", "statement": "A particle built from a configuration file has the configured mass and the configured nucleon/electron cross sections, whatever the mass, relative couplings and interaction type.", "quantifier": "every valid configuration", "why_tests_cant": "order of set calls matters; all values", "anchors": ["src/Configuration.cpp: Construct_DM_Particle, Construct_DM_Particle_Standard"]}
{"id": "C54", "title": "Reading a configuration does not destroy input", "statement": "Constructing a Configuration writes only below results/ID, only on MPI rank 0, and never changes the configuration file that was read.", "quantifier": "every path, ID and rank", "why_tests_cant": "file aliasing corner", "anchors": ["src/Configuration.cpp: Initialize_Result_Folder, Create_Result_Folder, Copy_Config_File"]}
{"id": "C55", "title": "Every advertised experiment can be selected", "statement": "Each supported DD_experiment string yields the detector of that name, any other string exits with an error.", "quantifier": "every string", "why_tests_cant": "all strings", "anchors": ["src/Configuration.cpp: Construct_DM_Detector", "src/Experiments.cpp"]}
{"id": "C56", "title": "Predefined experiments are internally consistent", "statement": "Each predefined experiment can be constructed without error: bin counts, observed events, efficiencies and thresholds fit together, and evaluating its signals has no undefined behaviour.", "quantifier": "all predefined experiments, every particle and halo", "why_tests_cant": "UB invisible to tests", "anchors": ["src/Experiments.cpp"]}
{"id": "C57", "title": "Crystal form-factor table lookups are in bounds", "statement": "Every lookup of the crystal form factor reads the tabulated entry for its energy and momentum bin, and is zero outside the table range.", "quantifier": "every q and E", "why_tests_cant": "boundary arithmetic over all reals", "anchors": ["src/Target_Crystal.cpp: Crystal::Crystal, Crystal_Form_Factor"]}
{"id": "C58", "title": "Recoil-energy and momentum cross sections are the same measure", "statement": "dSigma/dER = 2 m_N dSigma/dq2 at q = sqrt(2 m_N ER), so that integrating over recoil energies 0..ER_max gives the total cross section.", "quantifier": "every isotope, speed, particle", "why_tests_cant": "change of variables for all reals", "anchors": ["src/DM_Particle.cpp: dSigma_dER_Nucleus, Sigma_Total_Nucleus_Base"]}
{"id": "C59", "title": "The SHM++ speed distribution is a normalised probability distribution", "statement": "For physical parameters PDF_Speed of an SHM++ is non-negative, integrates to one over its domain, CDF_Speed is its integral, the anisotropic component is the Gaussian with st^2 = (1-beta) sr^2 and sr^2 + 2 st^2 = 3/2 v0^2 cut at the escape speed, and its tabulated eta is the integral of f(v)/v.", "quantifier": "every SHM++ with v0, v_esc > 0, 0 < beta < 1 and v_obs <= v_esc, every speed", "why_tests_cant": "normalisation is an identity between a closed form (erf, erfi) and a three-dimensional integral over all parameters", "anchors": ["src/DM_Halo_Models.cpp: SHM_Plus_Plus::Normalize_PDF, Compute_Sigmas, PDF_Velocity_S, PDF_Speed_S, CDF_Speed_S, Eta_Function_S, Interpolate_Eta_Function_S"]}
{"id": "C60", "title": "Isotopic abundances are normalised", "statement": "For every element of the nuclear data table the natural abundances of its isotopes lie in [0,1] and add up to one, so that the average nuclear mass and per-nucleus rates are averages.", "quantifier": "every element 1 <= Z <= 92 of the shipped table", "why_tests_cant": "a statement about all rows of the shipped data, consumed by every rate calculation", "anchors": ["data/Nuclear_Data.txt", "src/Target_Nucleus.cpp: Import_Nuclear_Data, Nucleus::Average_Nuclear_Mass"]}
{"id": "C61", "title": "Imported efficiencies multiply the rate of the intended target", "statement": "Without efficiency tables the efficiency is the flat one; a single imported table applies to every target nucleus, a list with one table per target applies target by target; the last import determines the efficiencies in use. Tables are evaluated at the observed energy.", "quantifier": "every detector, list of tables, target and energy", "why_tests_cant": "quantifies over all histories of import calls and all table functions", "anchors": ["src/Direct_Detection_Nucleus.cpp: DM_Detector_Nucleus::Import_Efficiency, dRdE"]}
{"id": "C62", "title": "Settings take effect and change nothing else", "statement": "Set_Spin, Set_Fractional_Density, Set_Low_Mass_Mode, Set_FormFactor_DM, Set_Mediator_Mass and Unfix_Coupling_Ratios change exactly the documented observable: reference cross sections never change, the form factor multiplies the contact cross section by the documented function, and a mediator mass only matters for the massive-mediator form factor. The low-mass mode leaves the signals and limits of electron recoil searches unchanged, and those of every search for spin-dependent interactions.", "quantifier": "every reachable particle and every argument", "why_tests_cant": "frame conditions over all states and all queries", "anchors": ["src/DM_Particle.cpp: Set_Spin, Set_Low_Mass_Mode, Set_Fractional_Density", "src/DM_Particle_Standard.cpp: Set_FormFactor_DM, Set_Mediator_Mass, Unfix_Coupling_Ratios"]}
{"id": "C63", "title": "No electron signal outside the kinematic range", "statement": "A semiconductor detector predicts a vanishing rate at energies above Maximum_Energy_Deposit, and at or above threshold for DM particles lighter than Minimum_DM_Mass; a particle slower than Minimum_DM_Speed cannot deposit the threshold energy; all three bounds are attained.", "quantifier": "every crystal, particle, halo, energy and threshold", "why_tests_cant": "universally quantified over energies, masses and momentum transfers", "anchors": ["src/Direct_Detection_Crystal.cpp: Maximum_Energy_Deposit, Minimum_DM_Mass, Minimum_DM_Speed, dRdEe_Crystal"]}
{"id": "C64", "title": "Electron rates are proportional to the electron cross section", "statement": "Every signal predicted by an electron-recoil detector (total, binned, differential) is multiplied by k when the DM-electron cross section is multiplied by k, so that the rescaling used for upper limits is exact.", "quantifier": "every crystal and ionization detector configuration, particle and factor", "why_tests_cant": "linearity over all configurations", "anchors": ["src/Direct_Detection_Crystal.cpp", "src/Direct_Detection_Ionization.cpp", "src/Direct_Detection_ER.cpp"]}
{"id": "C65", "title": "The electron spectrum accounts for every event", "statement": "R_ne of a shell is the integral over the electron energy of the energy spectrum weighted with the probability to release exactly ne electrons; summed over ne it is the integral of the energy spectrum. The spectra of a detector are the sums over atoms, weighted with their mass fractions, and over shells.", "quantifier": "every shell, atom, detector, particle, halo and number of electrons", "why_tests_cant": "an identity between sums over all grid points and all numbers of electrons", "anchors": ["src/Direct_Detection_Ionization.cpp: R_ne, dRdE, PDF_ne"]}
{"id": "C66", "title": "Ionization form factors are defined on every table, inside and outside", "statement": "For shells built from complete tables every call of Ionization_Form_Factor and Atomic_Response_Function with a valid response number returns a value: the table entry at a grid point, zero outside the tabulated momenta (except the documented continuation to small momentum transfers); any other response number ends the program.", "quantifier": "every shell, response, momentum transfer and electron energy", "why_tests_cant": "boundary cases over all reals and all tables", "anchors": ["src/Target_Atom.cpp: Atomic_Electron::Atomic_Response_Function, Ionization_Form_Factor"]}
{"id": "C67", "title": "A threshold analysis counts the events of the requested energy window", "statement": "After Use_Energy_Threshold(a, b) the predicted signals are the events with energies between a and b.", "quantifier": "every detector type and every window", "why_tests_cant": "quantifies over all windows and spectra", "anchors": ["src/Direct_Detection_Ionization.cpp: DM_Signals_Total", "src/Direct_Detection_Crystal.cpp: DM_Signals_Total", "src/Direct_Detection.cpp: DM_Signals_Total"]}
{"id": "C68", "title": "Ionization rates are never negative", "statement": "Every differential rate, electron spectrum and signal of an electron-recoil or Migdal detector is non-negative.", "quantifier": "every physical particle, halo, atom, energy and number of electrons", "why_tests_cant": "sign over all reals", "anchors": ["src/Direct_Detection_ER.cpp", "src/Direct_Detection_Migdal.cpp", "src/Direct_Detection_Ionization.cpp"]}
{"id": "C69", "title": "A configuration file gives the dark matter distribution it describes", "statement": "For a file that asks for SHM, SHM++ or File, the distribution of the Configuration object has the configured density and parameters; for the SHM its speed PDF is the normalised angular integral of the Maxwell-Boltzmann distribution cut at the escape velocity and seen by the configured observer; for SHM++ it is the combination with the configured weight; for File it has the tabulated values. Every other file stops the program.", "quantifier": "every parsed configuration file", "why_tests_cant": "quantifies over all files and all real parameter values, and equates a closed form with an integral", "anchors": ["src/Configuration.cpp: Construct_DM_Distribution, Construct_DM_Halo_Model, Construct_Imported_Distribution"]}
{"id": "C70", "title": "A configuration file gives the user-defined detector it describes", "statement": "For a file with DD_experiment Nuclear recoil, Electron recoil, Migdal or Semiconductor the detector of the Configuration object has exactly the configured exposure, efficiency, events, background, target and threshold and counts the events above that threshold; inadmissible values and missing settings stop the program.", "quantifier": "every parsed configuration file", "why_tests_cant": "quantifies over all files, all compositions and all values", "anchors": ["src/Configuration.cpp: Construct_DM_Detector, Construct_DM_Detector_Nuclear, Construct_DM_Detector_Ionization, Construct_DM_Detector_Crystal"]}
{"id": "C71", "title": "A Configuration object is complete and consists of what the file says", "statement": "The constructor of Configuration succeeds if and only if the file can be read and parsed and all of its parts can be built; the object then consists of exactly those parts, the ID, the parameters of exclusion limits and the results path results/<ID>/.", "quantifier": "every file system, file, installation and rank", "why_tests_cant": "quantifies over all files and all ways in which a part can fail", "anchors": ["src/Configuration.cpp: Configuration, Read_Config_File, Initialize_Parameters, Initialize_Result_Folder"]}
{"id": "C72", "title": "The velocity distribution is normalised and its mean is the velocity of the wind", "statement": "Integrated over all directions and speeds of its domain PDF_Velocity gives one, and Average_Velocity returns the negative of the observer's velocity, for the SHM and for SHM++.", "quantifier": "every physical parameter choice of the SHM and of SHM++, every direction of the observer", "why_tests_cant": "an identity of three-dimensional integrals for all real parameters", "anchors": ["src/DM_Distribution.cpp: Average_Velocity", "src/DM_Halo_Models.cpp: PDF_Velocity"]}
{"id": "C73", "title": "Exported tables hold the function, and importing them gives it back", "statement": "Export_PDF_Speed and Export_Eta_Function write one row per requested point, from the lower to the upper end of the domain, equidistant or with equal ratios, holding the speed in km/sec and the function there in sec/km; a distribution imported from such a file has the same domain and the same PDF at all rows.", "quantifier": "every distribution, number of points and scale", "why_tests_cant": "quantifies over all distributions and numbers of points", "anchors": ["src/DM_Distribution.cpp: Export_PDF_Speed, Export_Eta_Function, Imported_DM_Distribution"]}
{"id": "C74", "title": "The program writes the constraints it computes, and nothing else", "statement": "Run with a configuration file, the program either stops without writing limits or writes results/<ID>/DD_Constraints_<percentage>.txt: one row per mass at which a limit exists, the masses of the geometric grid from the configured lowest to highest mass, in GeV, with the upper limit in cm^2 at the configured certainty. Apart from the folders of the run, its copy of the configuration file and this table nothing on the file system changes; runs with different IDs, and with certainties of different percentage, do not overwrite each other's results.", "quantifier": "every file system, configuration file, installation and argument list", "why_tests_cant": "quantifies over all initial file systems, files and ways in which a part of the run can fail", "anchors": ["src/main.cpp: main", "src/Configuration.cpp: Configuration", "src/Direct_Detection.cpp: Upper_Limit_Curve"]}
{"id": "C75", "title": "Predicted event numbers are defined and not negative", "statement": "For every configuration file that describes a detector of one of the four user-defined kinds, and every particle and distribution with positive mass and non-negative cross sections, densities and speed PDF, DM_Signals_Total returns a number, and it is not negative.", "quantifier": "every parsed configuration file, particle, distribution and admissible set of data files", "why_tests_cant": "quantifies over all files, real parameters and data tables; the number is a sum of integrals", "anchors": ["src/Configuration.cpp: Construct_DM_Detector", "src/Direct_Detection.cpp: DM_Signals_Total", "src/Direct_Detection_Ionization.cpp: DM_Signals_Total", "src/Direct_Detection_Crystal.cpp: DM_Signals_Total"]}
{"id": "C76", "title": "A sensible configuration file leads to a file of correct exclusion limits", "statement": "If the configuration file describes a sensible particle, halo, detector and range of masses, the program ends regularly and results/<ID>/DD_Constraints_<percentage>.txt lists, for all masses of the grid at which there is a limit, a coupling below which the p-value exceeds 1-CL and above which it is below 1-CL.", "quantifier": "every configuration file, file system, installation and set of data files that meet the stated conditions", "why_tests_cant": "an end-to-end claim over all files and real parameters", "anchors": ["src/main.cpp: main", "src/Configuration.cpp: Configuration", "src/Direct_Detection.cpp: Upper_Limit_Curve, Upper_Limit, P_Value"]}
{"id": "C77", "title": "Rates are proportional to the share of the particle in the local density", "statement": "If the particle makes up the fraction f of the local dark matter density (Set_Fractional_Density, DM_fraction), all differential rates, event numbers and binned event numbers are f times those of a particle that makes up all of it.", "quantifier": "every fraction, particle, distribution and detector", "why_tests_cant": "quantifies over all real fractions and all detectors", "anchors": ["src/DM_Particle.cpp: Set_Fractional_Density", "src/Direct_Detection_Nucleus.cpp: dRdER_Nucleus", "src/Direct_Detection_ER.cpp: dRdEe_Ionization_ER", "src/Direct_Detection_Migdal.cpp: dRdEe_Ionization_Migdal", "src/Direct_Detection_Crystal.cpp: dRdEe_Crystal"]}
{"id": "C78", "title": "Every particle class has consistent cross sections and scattering angles", "statement": "For every class derived from DM_Particle that supplies differential and total cross sections with total = integral of the differential one over the allowed momentum transfers: PDF_Scattering_Angle is a normalised density on [-1,1], CDF_Scattering_Angle is its integral from -1, sampled angles follow it, the differential cross section in the recoil energy is the one in q^2 times 2 m_N, and a class that does not supply a total gets the integral; a class whose cross section vanishes has no distribution of angles.", "quantifier": "every derived class, mass, target and speed", "why_tests_cant": "quantifies over all user-defined classes, i.e. over all functions", "anchors": ["src/DM_Particle.cpp: dSigma_dER_Nucleus, Sigma_Total_Nucleus_Base, Sigma_Total_Electron_Base, PDF_Scattering_Angle_Nucleus_Base, CDF_Scattering_Angle_Nucleus_Base, Sample_Scattering_Angle_Nucleus_Base", "include/obscura/DM_Particle.hpp: DM_Particle"]}
{"id": "C79", "title": "Observed events and backgrounds do not influence predictions", "statement": "Setting observed events and expected backgrounds, any number of times and in any order, changes neither the predicted signals nor the spectrum nor the lightest testable mass; calls that set different quantities can be exchanged, and of two values given for the same quantity the last one counts.", "quantifier": "every detector of the four classes and every finite sequence of calls", "why_tests_cant": "quantifies over all histories of calls", "anchors": ["src/Direct_Detection.cpp: Set_Observed_Events, Set_Expected_Background, Set_Bin_Efficiencies, Set_Flat_Efficiency, DM_Signals_Total, DM_Signals_Binned"]}
{"id": "C80", "title": "Predicted events are proportional to exposure and efficiency", "statement": "With a times the exposure and f times the flat efficiency, and otherwise the same calls, the spectrum is multiplied by f and all signals (total and per bin) by a*f; the signal rate does not depend on the exposure.", "quantifier": "every detector of the four classes, every history of calls, particle, distribution, a and f", "why_tests_cant": "quantifies over all states and histories of a detector and all real factors", "anchors": ["src/Direct_Detection.cpp: DM_Signals_Total, DM_Signals_Binned, DM_Signal_Rate_Total, Set_Flat_Efficiency", "src/Direct_Detection_Ionization.cpp: DM_Signals_Total, DM_Signals_Binned", "src/Direct_Detection_Crystal.cpp: DM_Signals_Total, DM_Signals_Binned"]}
{"id": "C81", "title": "Summaries can always be printed, by one process only", "statement": "Print_Summary of a particle, distribution, target, detector or configuration is defined for every object that can be built and for every history of calls, so that a run of the program that prints its configuration goes on to its computation; and in a parallel run only the process of rank 0 prints.", "quantifier": "every object, rank, history of calls and configuration file", "why_tests_cant": "quantifies over all states of the detector classes, including those in which members are not yet initialised or of different lengths", "anchors": ["src/Direct_Detection.cpp: Print_Summary_Base", "src/Direct_Detection_Nucleus.cpp: Print_Summary", "src/Direct_Detection_Ionization.cpp: Print_Summary", "src/Direct_Detection_Crystal.cpp: Print_Summary", "src/Configuration.cpp: Print_Summary", "src/main.cpp: main"]}
{"id": "C82", "title": "Summaries describe the object in the units they name", "statement": "What Print_Summary shows are the values of the object, converted to the units named in the line: mass (in eV, keV, MeV or GeV with one to three digits before the point), spin, couplings and cross sections in cm^2 of a particle; density, speeds and parameters of a distribution; isotopes and orbitals of targets; exposure, efficiency, observed events, background, analysis and the rows of all bins of a detector; paths, ID and limit parameters of a configuration. Analyses that are no longer in use are not described.", "quantifier": "every particle, distribution, target, detector and configuration", "why_tests_cant": "quantifies over all states of all classes", "anchors": ["src/DM_Particle.cpp: Print_Summary_Base", "src/DM_Particle_Standard.cpp: Print_Summary_Standard, Print_Summary", "src/DM_Distribution.cpp: Print_Summary_Base, Check_Normalization", "src/DM_Halo_Models.cpp: Print_Summary_SHM, Print_Summary", "src/Target_Nucleus.cpp: Print_Summary", "src/Target_Atom.cpp: Print_Summary", "src/Direct_Detection.cpp: Print_Summary_Base", "src/Configuration.cpp: Print_Summary_Base"]}
{"id": "C83", "title": "Pure isotopes and mixtures of isotopes as targets", "statement": "A nucleus made of one isotope is a target of this isotope: it has its charge, its mean mass and its recoil spectrum. The recoil rate per mass of an element is that of the mixture of its isotopes: the rate per mass of each isotope weighted with its share of the mass. The Thomas-Fermi radius a of an isotope of charge Z satisfies 128 Z a^3 = 9 pi^2 a0^3.", "quantifier": "every isotope, element, particle, halo and recoil energy", "why_tests_cant": "quantifies over all isotopes, particles, velocity distributions and energies", "anchors": ["src/Target_Nucleus.cpp: Nucleus, Isotope, Thomas_Fermi_Radius, Number_of_Isotopes, Get_Isotope", "src/Direct_Detection_Nucleus.cpp: dRdER_Nucleus"]}
{"id": "C84", "title": "Detectors without arguments and without a region of interest", "statement": "The constructors without arguments give the same detectors as the constructors with the default arguments (a kilogram day of natural xenon, a gram year of silicon). A mixture of one atom is the detector of this atom; a mixture without mass fractions contains all atoms in equal shares. An ionization detector without a mechanism of ionization predicts no events. Asking a detector for a prediction before it was given a region of interest is reported as an error.", "quantifier": "every installation, list of atoms, particle and halo", "why_tests_cant": "quantifies over all constructor arguments, particles and velocity distributions", "anchors": ["src/Direct_Detection_Nucleus.cpp: DM_Detector_Nucleus", "src/Direct_Detection_ER.cpp: DM_Detector_Ionization_ER", "src/Direct_Detection_Migdal.cpp: DM_Detector_Ionization_Migdal", "src/Direct_Detection_Crystal.cpp: DM_Detector_Crystal, DM_Signals_Total", "src/Direct_Detection_Ionization.cpp: DM_Detector_Ionization, DM_Signals_Total"]}
{"id": "C85", "title": "The example programs compute what they announce", "statement": "The program Electron_Recoil_Limit ends normally and prints the cross section at which an argon experiment (100 kg years, at least four electrons) and a silicon experiment (10 gram years, at least two electron-hole pairs) expect log 20 events from a particle of 100 MeV in the standard halo: with no event observed, larger cross sections are excluded with 95% confidence. The program Nuclear_Recoil_Spectrum prints the rate of recoils of 1 keV per kg, year and keV of natural xenon, for particles of 10 GeV with a cross section of 1e-40 cm^2 on protons, by spin-independent and by spin-dependent interactions. The halo built without arguments has the density and the eta function of the standard halo with its parameters.", "quantifier": "every installation with the data files of the project and every exact numerical routine", "why_tests_cant": "the limit is a statement about all cross sections, and depends on the data files and the numerical routines", "anchors": ["examples/Electron_Recoil_Limit.cpp: main", "examples/Nuclear_Recoil_Spectrum.cpp: main", "src/DM_Halo_Models.cpp: Standard_Halo_Model()"]}
{"id": "C86", "title": "The nuclear data file is read as it is written", "statement": "A table of isotopes written as text - rows of name, Z, A, abundance, spin and two spin expectation values, separated by any white space, with numbers in any decimal notation - is read row by row as written, whatever the line ends, and the lookups give these rows. The file shipped with the library is read as its 295 rows. A file that is damaged (cut off at any character, or with a row that is not one) is noticed.", "quantifier": "every table, every layout of white space and numbers, every point at which the file may be cut off", "why_tests_cant": "quantifies over all texts and all cut points", "anchors": ["src/Target_Nucleus.cpp: Import_Nuclear_Data, Get_Nucleus", "data/Nuclear_Data.txt"]}
{"id": "C87", "title": "Upper limits follow the data", "statement": "The upper limit of a counting experiment (total or binned) is the interaction parameter at which the p-value - the probability of at most the observed number of events, or its minimum over the bins - equals one minus the confidence level, and -1 is returned only if there is none in the searched range. Hence entering more observed events, less background or a higher confidence level never makes the limit stronger; with a times the exposure and f times the efficiency, and the same data, the limit is exactly a f times stronger; without observed events the excluded expectation is -log(1-CL) minus the background; and the limit does not depend on the cross section the particle happens to have.", "quantifier": "every counting detector and history of data entries, every particle, halo, confidence level, exposure and efficiency", "why_tests_cant": "compares the results of root searches for all pairs of data sets and confidence levels", "anchors": ["src/Direct_Detection.cpp: Upper_Limit, P_Value, Compute_P_Value_Poisson, Set_Observed_Events, Set_Expected_Background, Set_Flat_Efficiency, DM_Signals_Total, DM_Signals_Binned"]}
{"id": "C88", "title": "Rounding errors stay small and add up at most linearly", "statement": "In double arithmetic with rounding to nearest: a cross section that is set and read back deviates by at most eleven rounding errors (relative 2^-53 each); every change of the mass and every upper limit computed adds at most a fixed number of them, so that after a limit curve with n masses the cross section of the particle is the old one up to 12 (2n+1) 2^-53; couplings with a fixed ratio keep it. Day counts at midnight are exact, and with a time of day exact to a nanoday between 1800 and 2200. Mass fractions of a compound of n elements are exact up to n+1 rounding errors.", "quantifier": "every rounding to nearest, every particle, history of calls, date, time and composition", "why_tests_cant": "accumulated rounding errors for all histories and all admissible roundings", "anchors": ["src/DM_Particle_Standard.cpp: Set_Sigma_Proton, Set_Sigma_Neutron, Set_Mass, Sigma_Proton, Sigma_Neutron, Get_Interaction_Parameter, Set_Interaction_Parameter", "src/Direct_Detection.cpp: Upper_Limit, Upper_Limit_Curve", "src/Astronomy.cpp: Fractional_Days_since_J2000", "src/Direct_Detection_Nucleus.cpp: DM_Detector_Nucleus"]}
{"id": "C89", "title": "Shares that add up to one are taken as shares", "statement": "A list of shares by mass that add up to one is stored as given by the constructor of a nuclear detector; only a list with a larger sum is taken for numbers of atoms.", "quantifier": "every list of non-negative shares, with the rounding errors of their sum", "why_tests_cant": "depends on the last binary digit of a sum", "anchors": ["src/Direct_Detection_Nucleus.cpp: DM_Detector_Nucleus"]}
{"id": "C90", "title": "A composition is neither ordered nor unique in its notation", "statement": "The results of a nuclear or ionization detector - expected events, spectra, smallest mass and speed, largest deposited energy - do not depend on the order in which the components of the target are listed with their shares. For a nuclear detector, a component listed twice is the same as once with the sum, numbers of atoms may be multiplied by a common factor, no list of numbers means equal numbers of atoms, and a component with the share zero changes nothing.", "quantifier": "every list of components and shares, particle, halo and state of the analysis", "why_tests_cant": "compares all permutations and notations of all compositions", "anchors": ["src/Direct_Detection_Nucleus.cpp: DM_Detector_Nucleus, dRdE, Maximum_Energy_Deposit, Minimum_DM_Mass, Minimum_DM_Speed", "src/Direct_Detection_Ionization.cpp: DM_Detector_Ionization, dRdE, R_ne, R_S2, DM_Signals_Total, DM_Signals_Binned, Minimum_DM_Mass"]}
{"id": "C91", "title": "A narrower selection never predicts more events", "statement": "Raising a threshold or narrowing the window of accepted electrons, photoelectrons, electron-hole pairs or energies never raises the predicted number of events, for the same detector, particle and halo.", "quantifier": "every pair of windows of which one contains the other, every detector, particle and halo with rates that are not negative", "why_tests_cant": "compares the predictions for all pairs of nested windows", "anchors": ["src/Direct_Detection_Ionization.cpp: Use_Electron_Threshold, Use_PE_Threshold, DM_Signals_Total, R_S2_Bin", "src/Direct_Detection_Crystal.cpp: Use_Q_Threshold, DM_Signals_Total", "src/Direct_Detection.cpp: Use_Energy_Threshold, DM_Signals_Total"]}
{"id": "C92", "title": "A mixture is the sum of its components", "statement": "A target made of several components with given mass shares has, at every recoil energy, exactly the spectrum obtained by adding, for each component, its share times the spectrum of a detector made of that component alone. The same holds after the finite energy resolution is applied, for the predicted total number of events and for the events in every energy bin, whenever the interpolated spectra are integrated exactly. The largest possible recoil energy, the smallest accessible speed and the smallest accessible mass of the mixture are those of the component which reaches furthest. For noble gas detectors the spectra over electrons and photoelectrons, the events per bin and the events in total are likewise the weighted sums over the atoms, and setters act on the mixture as on each component.", "quantifier": "every list of nuclei and positive ratios (or of atoms and ratios), every particle, halo, energy, resolution, binning and history of setter calls", "why_tests_cant": "compares detectors of different composition for every composition, particle and halo at once", "anchors": ["src/Direct_Detection_Nucleus.cpp: DM_Detector_Nucleus, dRdE, Maximum_Energy_Deposit, Minimum_DM_Speed, Minimum_DM_Mass", "src/Direct_Detection_Ionization.cpp: R_ne, R_S2, DM_Signals_Binned, DM_Signals_Electron_Bins", "src/Direct_Detection.cpp: DM_Signals_Total, DM_Signals_Energy_Bins"]}
{"id": "C93", "title": "Event numbers are proportional to the local density of dark matter", "statement": "For detectors of every class (nuclear recoils, electron recoils, Migdal, crystals) in every state, and for every particle and halo: with k times the local density the spectrum, the total number of signals and the signals in every bin are multiplied by k, and a call that ends in an error still does. The largest energy deposit and the smallest detectable mass do not depend on the density. Halo models of every class constructed with k times the density differ in nothing else. The upper limits of counting and of binned experiments become exactly k times stronger.", "quantifier": "every density factor, halo, particle, detector state, energy, binning and confidence level", "why_tests_cant": "relates two halo models for every detector state and particle at once; a test compares a few rates", "anchors": ["src/DM_Distribution.cpp: Differential_DM_Flux", "src/Direct_Detection_Nucleus.cpp: dRdER_Nucleus", "src/Direct_Detection_ER.cpp: dRdEe_Ionization_ER", "src/Direct_Detection_Migdal.cpp: dRdEe_Ionization_Migdal", "src/Direct_Detection_Crystal.cpp: dRdEe_Crystal, R_Q_Crystal, R_total_Crystal", "src/Direct_Detection.cpp: DM_Signals_Total, DM_Signals_Binned, Upper_Limit"]}
{"id": "C94", "title": "The wind of dark matter blows faster in June than in December", "statement": "Setting the observer's velocity of a standard or refined halo model by a date and time gives, for every date, a speed between 202.2 and 262.9 km/s (the speed of the Sun plus or minus that of the Earth's orbit), and the fastest particle is faster than the escape speed by just this speed. Between any two dates the observer's speed changes by no more than twice the orbital speed. In every year from 1901 to 2099 the speed is above 245 km/s at every minute of the first half of June and below 223 km/s at every minute of the first half of December.", "quantifier": "every date and time (all integers for the bounds; all minutes of the years 1901 to 2099 for the modulation) and every state of the halo model", "why_tests_cant": "ranges over all dates; a test compares a few of them with a tolerance", "anchors": ["src/DM_Halo_Models.cpp: Standard_Halo_Model::Set_Observer_Velocity", "src/Astronomy.cpp: Earth_Velocity, Sun_Velocity, Fractional_Days_since_J2000, Transform_HelEcl_to_Gal"]}
{"id": "C95", "title": "Faster halos and lower thresholds reach lighter particles", "statement": "In a halo whose fastest particles are faster the largest energy deposit a detector reports is not smaller, and the smallest mass it reports as observable is not larger; a heavier particle deposits no less, and a lower threshold reaches no heavier masses. For nuclear recoils this holds as long as the particle still scatters on every isotope it scattered on, which particles with speed-independent cross sections always do. In particular, with the standard halo model a nuclear recoil detector reaches lighter particles and larger recoils in the first half of June than in the first half of December of any years from 1901 to 2099.", "quantifier": "every detector of each kind, particle, pair of halos and (for the seasons) every minute of the two fortnights", "why_tests_cant": "compares the results for all pairs of halos, masses and thresholds", "anchors": ["src/Direct_Detection_Nucleus.cpp: DM_Detector_Nucleus::Maximum_Energy_Deposit, Minimum_DM_Mass", "src/Direct_Detection_Ionization.cpp: DM_Detector_Ionization::Maximum_Energy_Deposit, Minimum_DM_Mass", "src/Direct_Detection_Crystal.cpp: DM_Detector_Crystal::Maximum_Energy_Deposit, Minimum_DM_Mass"]}
{"id": "C96", "title": "Recoil spectra fall with the energy", "statement": "For a particle that sees the nuclei as points (spin-dependent interactions, or the low-mass mode), whatever its form factor, the recoil spectrum of every isotope, and of a nuclear recoil detector without energy resolution and efficiency tables, is defined, not negative and does not increase with the energy, with both ways of computing it. Hence with energy bins of equal efficiency no bin expects more events than a bin at lower energies. Every physical standard halo meets the conditions on the halo.", "quantifier": "every such particle, target, halo and pair of energies; every number of bins", "why_tests_cant": "compares the spectrum at all pairs of energies", "anchors": ["src/Direct_Detection_Nucleus.cpp: dRdER_Nucleus, DM_Detector_Nucleus::dRdE", "src/Direct_Detection.cpp: DM_Detector::DM_Signals_Energy_Bins", "src/DM_Halo_Models.cpp: Standard_Halo_Model::Eta_Function"]}
{"id": "C97", "title": "Couplings of opposite sign cancel", "statement": "After fixing the ratio of the couplings at which the amplitudes of protons and neutrons of an isotope cancel (or, for spin-dependent interactions, of their average spins), whatever calls came before and after, the particle passes through this isotope: all its cross sections are zero, and a detector made of such isotopes has a rate of zero at all energies, whatever its resolution and efficiencies. Two isotopes with different ratios of protons to neutrons are never both invisible. The smallest observable mass of such a detector is defined (it is not: an empty list is dereferenced).", "quantifier": "every history of setter calls, isotope, detector, halo and energy", "why_tests_cant": "ranges over all histories and isotopes; a test checks one ratio and one isotope", "anchors": ["src/DM_Particle_Standard.cpp: DM_Particle_Standard::Fix_Coupling_Ratio, Fix_fn_over_fp, Fix_fp_over_fn", "src/DM_Particle_Standard.cpp: DM_Particle_SI::dSigma_dq2_Nucleus, Sigma_Total_Nucleus, DM_Particle_SD::dSigma_dq2_Nucleus", "src/Direct_Detection_Nucleus.cpp: DM_Detector_Nucleus::Minimum_DM_Mass"]}
{"id": "C98", "title": "The range of the force", "statement": "Choosing a form factor (contact, general mediator, electric dipole, long range) for a spin-independent particle multiplies the recoil spectrum of the contact interaction by a factor that depends on the momentum transfer only: one at the reference momentum alpha m_e, to which all cross sections refer. A force of longer range (a lighter mediator, up to a long-range one) gives smaller rates at energies above the reference momentum of every isotope and larger ones below; with a threshold above it no bin expects more events and the limit on the reference cross section is not stronger.", "quantifier": "every history of setter calls, pair of ordered form factors and mediator masses, halo, isotope, energy and binning", "why_tests_cant": "compares all pairs of mediators at all momentum transfers", "anchors": ["src/DM_Particle_Standard.cpp: DM_Particle_SI::Set_FormFactor_DM, FormFactor2_DM, dSigma_dq2_Nucleus", "src/Direct_Detection_Nucleus.cpp: dRdER_Nucleus, DM_Detector_Nucleus::dRdE", "src/Direct_Detection.cpp: DM_Detector::DM_Signals_Energy_Bins, Upper_Limit"]}
{"id": "C99", "title": "Only the speed of the observer matters in an isotropic halo", "statement": "Two standard halo models of the same density, dispersion and escape velocity whose observers have the same speed, in whatever directions they move and whatever calls led there, have the same speed distributions, so every detector has the same spectra, expected events, p-values and limits. Turning the observer turns the velocity distribution. In the anisotropic refined model this holds for rotations and reflections that keep the direction to the galactic centre: velocity distribution, speed PDF, CDF and Eta_Function.", "quantifier": "every reachable pair of standard halos, every rotation or reflection, every detector, particle and speed", "why_tests_cant": "ranges over all directions; a test evaluates a few", "anchors": ["src/DM_Halo_Models.cpp: Standard_Halo_Model::PDF_Velocity, PDF_Speed, CDF_Speed, Eta_Function, Set_Observer_Velocity", "src/DM_Halo_Models.cpp: SHM_Plus_Plus::PDF_Velocity, PDF_Speed, CDF_Speed, Eta_Function"]}
{"id": "C100", "title": "Rates fall with the mass at most like the number density and the coupling", "statement": "At fixed reference cross sections, the rate times the mass times the square of the reduced mass with the proton does not fall when the mass is raised: for every isotope, every nuclear recoil detector (with any resolution, efficiencies and thresholds) and every energy bin, and for the electrons released by the Migdal effect. Hence the upper limit of a binned analysis, divided by the same factor, does not grow with the mass, in single calls of Upper_Limit and between any two rows of a table of Upper_Limit_Curve: limits weaken at most linearly for heavy particles.", "quantifier": "every reachable particle, pair of masses, halo, target, detector configuration, energy and table of masses", "why_tests_cant": "compares rates and limits at all pairs of masses", "anchors": ["src/DM_Particle_Standard.cpp: DM_Particle_Standard::Set_Mass, DM_Particle_SI::dSigma_dq2_Nucleus, DM_Particle_SD::dSigma_dq2_Nucleus", "src/Direct_Detection_Nucleus.cpp: dRdER_Nucleus, DM_Detector_Nucleus::dRdE, vMinimal_Nucleus", "src/Direct_Detection.cpp: DM_Detector::Upper_Limit, Upper_Limit_Curve, DM_Signals_Energy_Bins"]}
{"id": "C101", "title": "Limits from electron scattering in crystals weaken at most like the number density and the coupling", "statement": "At a fixed cross section with electrons, the spectrum of a semiconductor times the mass times the square of the reduced mass with the electron does not fall when the mass is raised: at every energy, for every number of electron-hole pairs, for the total events with a threshold in the energy or in the number of pairs, and for every bin. Hence upper limits, counting or binned, divided by the same factor do not grow with the mass.", "quantifier": "every reachable particle, pair of masses, halo, crystal, detector configuration, energy and number of pairs", "why_tests_cant": "compares rates and limits at all pairs of masses", "anchors": ["src/DM_Particle_Standard.cpp: DM_Particle_Standard::Set_Mass, DM_Particle_SI::dSigma_dq2_Electron, d2Sigma_dq2_dEe_Crystal", "src/Direct_Detection_Crystal.cpp: dRdEe_Crystal, R_Q_Crystal, R_total_Crystal, DM_Detector_Crystal::DM_Signals_Total, DM_Signals_Binned", "src/Direct_Detection.cpp: DM_Detector::Upper_Limit"]}
{"id": "C102", "title": "Limit curves and scans can be split, reordered and continued", "statement": "A limit curve or likelihood scan over many masses is the concatenation of those over pieces of the list, whether the pieces are computed by different processes with copies of the objects or one after the other on the same objects, and it leaves the objects in the same state; the order of the masses (and couplings) only determines the order of the rows. The order in which observed events are given to the maximum gap method is irrelevant.", "quantifier": "every reachable particle and detector, every list of masses and couplings and every way to split or permute it, every list of events", "why_tests_cant": "quantifies over all partitions and permutations of arbitrarily long lists, that is over all schedules", "anchors": ["src/Direct_Detection.cpp: DM_Detector::Upper_Limit_Curve, Log_Likelihood_Scan, Use_Maximum_Gap"]}
{"id": "C103", "title": "The program prints the limits it writes", "statement": "After a regular run the terminal shows one numbered line for every row of the table that is written, in the same order and with the same mass and limit: masses below 1 GeV in MeV, others in GeV, limits in cm^2. They are the limit curve of the configured objects on the configured grid of masses. Without a usable configuration no limit is printed.", "quantifier": "every configuration file, state of the files and arguments", "why_tests_cant": "relates the output to the files for all configurations", "anchors": ["src/main.cpp: main"]}
{"id": "C104", "title": "Results do not depend on the internal unit of energy", "statement": "All formulas are dimensionally consistent. If masses, momenta, energies, densities, cross sections and the physical constants are all expressed in another unit of energy, particles, halos, targets and detectors after any sequence of calls, all predefined experiments and everything a configuration file describes are the same objects in the new unit: cross sections, form factors, minimal speeds, spectra and largest energy deposits change by the power of the unit their dimension demands, and expected events (total and per bin), p-values, likelihoods and scans do not change at all. An upper limit found in both units is the same cross section; the smallest detectable mass and speed are the same.", "quantifier": "every factor between the units, every particle, halo, target and detector of every class, every experiment and configuration file, every history of calls, energy, mass and coupling", "why_tests_cant": "ranges over all units, histories and inputs; in a test the unit is fixed at compile time", "anchors": ["src/DM_Particle_Standard.cpp: all setters and cross sections", "src/DM_Halo_Models.cpp: Standard_Halo_Model", "src/Target_Nucleus.cpp, src/Target_Atom.cpp, src/Target_Crystal.cpp: constructors and form factors", "src/Direct_Detection.cpp: P_Value, Log_Likelihood, Log_Likelihood_Scan, Upper_Limit", "src/Direct_Detection_Nucleus.cpp, src/Direct_Detection_ER.cpp, src/Direct_Detection_Migdal.cpp, src/Direct_Detection_Crystal.cpp, src/Direct_Detection_Ionization.cpp: rates and signals", "src/Experiments.cpp: all functions", "src/Configuration.cpp: Construct_DM_Particle, Construct_DM_Distribution, Construct_DM_Detector", "src/main.cpp: main"]}
{"id": "C105", "title": "Warnings about the limits of tables are printed once", "statement": "When the response functions of a shell are evaluated outside their table, the result is 0 and the user is warned: the warning names the shell, the response and the quantity that is out of range, it is printed at the first such call, and not again for this shell. Printing it has no effect on any value. The same holds for the form factors of crystals, with one warning for the program.", "quantifier": "every atom, shell and crystal, every argument, every sequence of calls of any length", "why_tests_cant": "speaks about all histories of calls; what was printed before is hidden state", "anchors": ["src/Target_Atom.cpp: Atomic_Electron::Atomic_Response_Function, Atom::Electron", "src/Target_Crystal.cpp: Crystal::Crystal_Form_Factor, have_warned"]}
{"id": "C106", "title": "The likelihood singles out one cross section", "statement": "In a counting experiment with an expected background, Log_Likelihood as a function of the interaction parameter rises strictly until the expected signal equals the observed excess over the background and falls strictly afterwards, so that exactly one cross section fits best. Without a background estimate all cross sections that predict fewer events than observed are equally likely and larger ones are ever less likely. With energy or charge bins the log-likelihood is concave in the interaction parameter. In no scan does it have two separate peaks.", "quantifier": "every detector class and state, every particle it sees, every interaction parameter, every number of bins, every grid of a scan", "why_tests_cant": "shape of a function over all real parameters; any number of bins", "anchors": ["src/Direct_Detection.cpp: Log_Likelihood, Log_Likelihood_Scan"]}
{"id": "C107", "title": "Further bins can only exclude more, and bins agree with windows", "statement": "If an analysis has all bins of another one with the same data, and further ones, its P_Value is never larger and its upper limit never weaker. A binned analysis with a single bin gives the p-value, the log-likelihood and the upper limit of counting the events of this bin. Asking for more electron bins or Q-bins leaves the predictions for the others as they are, and the events in all bins together are those in the window the bins cover.", "quantifier": "every detector class and state, every particle it sees, every number of bins and all data; every certainty level", "why_tests_cant": "compares whole analyses over all data, spectra and numbers of bins", "anchors": ["src/Direct_Detection.cpp: P_Value, Log_Likelihood, Upper_Limit", "src/Direct_Detection_Ionization.cpp: Use_Electron_Bins, Use_Electron_Threshold", "src/Direct_Detection_Crystal.cpp: Use_Q_Bins, Use_Q_Threshold"]}
{"id": "C108", "title": "Missing data files only ever end the program", "statement": "Whatever is configured: if data files are missing, reading the configuration ends the program or gives the very same detector as a complete installation, never a different one. A predefined search depends on the content of its own files only (nuclear data, four response tables for each shell of its atom, the silicon table, its event list and efficiencies), and on all of them: a starting program that gets the detector has every one, and without any single one it ends. Nuclear data are read once per program.", "quantifier": "every configuration file, every installation with any set of files missing or changed, every predefined search and user-defined detector", "why_tests_cant": "ranges over all contents and all subsets of the data files", "anchors": ["src/Configuration.cpp: Configuration::Construct_DM_Detector", "src/Experiments.cpp", "src/Target_Nucleus.cpp: Import_Nuclear_Data, Get_Nucleus", "src/Target_Atom.cpp: Atom::Atom, Atomic_Electron::Atomic_Electron", "src/Target_Crystal.cpp: Crystal::Crystal", "src/Direct_Detection_Nucleus.cpp: Import_Efficiency"]}
{"id": "C109", "title": "Limits have the coverage they announce", "statement": "If a particle is what the detector really sees, so that the observed events follow the predicted signal plus background, then counting experiments exclude it wrongly with probability at most one minus the certainty level, and the p-value falls below any level a with probability at most a (exactly, at the levels the counts can reach). With several bins the smallest p-value of the bins is used: the probability is at most one minus the certainty level to the power of the number of bins.", "quantifier": "every detector that sees the particle by counting or in bins, every certainty level, all data with their Poisson probabilities", "why_tests_cant": "a probability over infinitely many possible observations", "anchors": ["src/Direct_Detection.cpp: DM_Detector::P_Value, DM_Detector::Upper_Limit"]}
{"id": "C110", "title": "Earlier calls do not influence later ones", "statement": "A program may look up nuclei and isotopes, construct atoms and detectors and read configurations in any number and order. Although the nuclear data are kept in a global variable, each call returns what it returns as the only call of a program, the same call always returns the same, the order of the calls does not matter, and the program ends where the first call would have ended it on its own.", "quantifier": "every finite sequence of lookups, constructor calls and configurations, every content of the data files", "why_tests_cant": "ranges over all histories of a process and over all data files", "anchors": ["src/Target_Nucleus.cpp: all_nuclei, Get_Nucleus, Get_Isotope", "src/Target_Atom.cpp: Atom::Atom", "src/Direct_Detection_Ionization.cpp", "src/Direct_Detection_Nucleus.cpp", "src/Experiments.cpp", "src/Configuration.cpp: Configuration::Construct_DM_Detector"]}
{"id": "C111", "title": "Heavy particles", "statement": "At constant cross sections heavy particles are the rarer the heavier they are: the recoil rate of every isotope, and the number of events in every bin of a recoil detector, times the mass approaches a number as the mass grows, and never exceeds what this number says. Limits on the cross section from bins therefore grow in proportion to the mass up to bounded factors, until they leave the searched range of interaction parameters; above some mass no limit is found and limit curves end.", "quantifier": "every particle, isotope, energy, halo with a falling mean inverse speed, recoil detector with or without energy resolution, and all masses", "why_tests_cant": "a statement about the limit of infinite mass, at all energies", "anchors": ["src/Direct_Detection_Nucleus.cpp: dRdER_Nucleus, DM_Detector_Nucleus::dRdE", "src/Direct_Detection.cpp: DM_Signals_Energy_Bins, Upper_Limit, Upper_Limit_Curve", "src/DM_Particle_Standard.cpp: Set_Mass"]}
{"id": "C112", "title": "Only isotopes with spin feel spin-dependent interactions", "statement": "A particle with a spin-dependent interaction passes through exactly those isotopes that have no spin or whose spin couplings cancel. Spectra, expected events, p-values and kinematic thresholds of a detector are the same as if all isotopes without spin data were taken out of the target. A target without any such isotope sees no events and gives no limit, but a limit curve for it must still be well-defined.", "quantifier": "every spin-dependent particle, isotope, target, energy, halo, detector and run of the program", "why_tests_cant": "holds for all targets and energies; only a few isotopes can be tried", "anchors": ["src/DM_Particle_Standard.cpp: DM_Particle_SD::dSigma_dq2_Nucleus, DM_Particle_SD::Sigma_Total_Nucleus", "src/Direct_Detection_Nucleus.cpp: dRdER_Nucleus, DM_Detector_Nucleus::dRdE, Maximum_Energy_Deposit, Minimum_DM_Mass, Minimum_DM_Speed", "src/Direct_Detection.cpp: Upper_Limit, Upper_Limit_Curve", "data/Nuclear_Data.txt"]}
{"id": "C113", "title": "Heavy particles in semiconductors", "statement": "At constant cross section with electrons the spectra, the rates of electron-hole pairs and the events above a threshold in electron-hole pairs in a semiconductor detector fall like the inverse of the mass of heavy particles. The limits of such a detector rise like the mass, from the first mass with a limit on nowhere faster than the mass times the square of the reduced mass with the electron; beyond the mass where the limit would exceed the searched parameters the result is -1 and limit curves have no points.", "quantifier": "every standard particle, crystal, halo, energy, number of electron-hole pairs, exposure and certainty, and every mass", "why_tests_cant": "a statement about the limit of infinite mass and about all masses; tests sample finitely many", "anchors": ["src/Direct_Detection_Crystal.cpp: dRdEe_Crystal, R_Q_Crystal, R_total_Crystal, DM_Detector_Crystal::DM_Signals_Total, Use_Q_Threshold", "src/DM_Particle_Standard.cpp: d2Sigma_dq2_dEe_Crystal", "src/Direct_Detection.cpp: Upper_Limit, Upper_Limit_Curve"]}
{"id": "C114", "title": "Sums over grids approximate the integrals they stand for", "statement": "The spectra of semiconductor and atomic targets, the rates of electron-hole pairs and the rates of electron numbers are integrals over momentum transfers or energies. The computed sums over tabulated points differ from these integrals by at most one step of the grid times the total variation of the integrand (and, for bins that do not end on the grid, its largest value); in particular an integrand that is constant along the grid is integrated exactly.", "quantifier": "every particle, crystal, shell, halo, energy, number of pairs and number of electrons", "why_tests_cant": "an error bound for all integrands; a test compares with one integral at a time and cannot know the exact value", "anchors": ["src/Direct_Detection_Crystal.cpp: dRdEe_Crystal, R_Q_Crystal, R_total_Crystal", "src/Direct_Detection_ER.cpp: dRdEe_Ionization_ER", "src/Direct_Detection_Ionization.cpp: DM_Detector_Ionization::R_ne", "src/Target_Atom.cpp: Atomic_Electron", "src/Target_Crystal.cpp: Crystal"]}
{"id": "C115", "title": "Sampled scattering angles follow the announced distribution", "statement": "If the random numbers are uniform and independent, the sampled cosine of the scattering angle lies in any interval with the probability given by the integral of the PDF. The recoil energies computed from sampled angles follow the recoil spectrum, those of electrons the momentum spectrum. Histograms of ever more samples converge to the PDF and the average energy loss to the mean of the recoil spectrum. The finite tolerance of the sampler shifts the ends of an interval by no more than the tolerance.", "quantifier": "every particle with a total cross section, isotope, speed, interval and sequence of random numbers", "why_tests_cant": "statements about probabilities and limits of infinitely many samples; a test draws a finite number of them", "anchors": ["src/DM_Particle.cpp: Sample_Scattering_Angle_Nucleus_Base, Sample_Scattering_Angle_Electron_Base, PDF_Scattering_Angle_Nucleus_Base, CDF_Scattering_Angle_Nucleus_Base, dSigma_dER_Nucleus", "src/DM_Particle_Standard.cpp: Sample_Scattering_Angle_Nucleus, Sample_Scattering_Angle_Electron, PDF_Scattering_Angle_Nucleus, PDF_Scattering_Angle_Electron, Sigma_Total_Nucleus"]}
{"id": "C116", "title": "Small changes of the input do not make the results jump", "statement": "The density and distribution of speeds and the mean inverse speed vary continuously with the speed, recoil and ionization spectra with the energy, and rates, expected events and upper limits with the mass of the particle.", "quantifier": "every halo with a density of speeds, particle, isotope, semiconductor, energy and mass", "why_tests_cant": "continuity is a statement about limits at uncountably many points; a test compares finitely many", "anchors": ["src/DM_Halo_Models.cpp: PDF_Speed, CDF_Speed, Eta_Function", "src/Target_Nucleus.cpp: Helm_Form_Factor", "src/Direct_Detection_Nucleus.cpp: dRdER_Nucleus", "src/Direct_Detection_Crystal.cpp: dRdEe_Crystal, R_Q_Crystal, R_total_Crystal", "src/Direct_Detection.cpp: Upper_Limit"]}
{"id": "C117", "title": "A halo with at most k times the particles gives at most k times the events", "statement": "If one halo holds at every speed at most k times as many particles as another one, then all rates, spectra and expected numbers of events computed with it are at most k times as large, and the limit found with the other halo is at most k times the limit found with it. Standard halos that differ in the escape velocity or in the density are such a pair.", "quantifier": "every two halos, particle, nuclear recoil, semiconductor and ionization detector, bin and certainty level", "why_tests_cant": "two arbitrary halos are functions of the speed; tests compare single benchmark halos", "anchors": ["src/DM_Distribution.cpp: PDF_Speed, Eta_Function, Differential_DM_Flux", "src/DM_Halo_Models.cpp: PDF_Speed, Eta_Function, Set_Escape_Velocity", "src/Direct_Detection_Nucleus.cpp: dRdER_Nucleus, dRdE", "src/Direct_Detection_Crystal.cpp: dRdEe_Crystal, R_Q_Crystal, R_total_Crystal", "src/Direct_Detection_ER.cpp: dRdEe_Ionization_ER", "src/Direct_Detection_Migdal.cpp: dRdEe_Ionization_Migdal", "src/Direct_Detection.cpp: DM_Signals_Total, DM_Signals_Binned, Upper_Limit"]}
{"id": "C118", "title": "A halo made of two components gives the sum of their events", "statement": "If a halo consists of two halos with weights a and b, then every rate, spectrum and expected number of events computed with it is a times that of the first plus b times that of the second, and the inverse of the limit is the same combination of the inverse limits. The SHM++ is such a halo: it consists of the standard halo with the same parameters and of the anisotropic component alone.", "quantifier": "every pair of halos and weights, particle, nuclear recoil, semiconductor and ionization detector, bin and certainty level; every admissible set of SHM++ parameters", "why_tests_cant": "the halos are arbitrary functions of the speed; tests evaluate single benchmark halos", "anchors": ["src/DM_Distribution.cpp: PDF_Speed, Eta_Function, Differential_DM_Flux", "src/DM_Halo_Models.cpp: SHM_Plus_Plus, PDF_Speed, Eta_Function", "src/Direct_Detection_Nucleus.cpp: dRdER_Nucleus, dRdE", "src/Direct_Detection_Crystal.cpp: dRdEe_Crystal, R_Q_Crystal, R_total_Crystal", "src/Direct_Detection_ER.cpp: dRdEe_Ionization_ER", "src/Direct_Detection_Migdal.cpp: dRdEe_Ionization_Migdal", "src/Direct_Detection.cpp: DM_Signals_Total, DM_Signals_Binned, Upper_Limit"]}
{"id": "C119", "title": "An energy resolution moves events, but creates none and loses almost none", "statement": "With a finite energy resolution a nuclear recoil detector counts in a window of observed energies at most the recoils that the same detector with perfect resolution counts in the window enlarged by six standard deviations above and down to three standard deviations below the threshold, and at least a share 1 - exp(-18) of the recoils that are six standard deviations inside the window. Recoils above the threshold contribute to what is observed.", "quantifier": "every detector without efficiency tables, resolution, window, particle and halo whose spectrum is defined and not negative", "why_tests_cant": "a statement about integrals over arbitrary spectra, not about values of the spectrum at single energies", "anchors": ["src/Direct_Detection_Nucleus.cpp: dRdE, Set_Resolution", "src/Direct_Detection.cpp: DM_Signals_Total, DM_Signals_Binned, Use_Energy_Bins"]}
{"id": "C120", "title": "The low-mass mode overestimates the events, by a known share", "statement": "Switching the low-mass mode on, which treats the nuclei as points, never lowers a differential rate, the events expected in a bin or the strength of a limit. It exaggerates them by at most the share 2 M E <r^2> / 3, where <r^2> is the mean square radius of the nucleus and E the largest recoil energy of the analysis.", "quantifier": "every particle, interaction, halo, target of several nuclei, efficiency, recoil energy, number of bins and limit", "why_tests_cant": "a bound on the ratio of two spectra over a continuum of energies and for arbitrary nuclei", "anchors": ["src/Target_Nucleus.cpp: Helm_Form_Factor", "src/DM_Particle_Standard.cpp: dSigma_dq2_Nucleus", "src/DM_Particle.cpp: Set_Low_Mass_Mode", "src/Direct_Detection.cpp: DM_Signals_Binned, Upper_Limit"]}
{"id": "C121", "title": "Electrons and nuclei are independent targets", "statement": "Calls that concern the interaction with nuclei (cross sections with nucleons, coupling ratios, low-mass mode) never change the rates, signals and limits of a search for electron recoils. Calls that concern the interaction with electrons never change those of a search for nuclear recoils or for the Migdal effect.", "quantifier": "every particle, every sequence of such calls of any length, every detector of these classes and its configuration, halo and numerical routine; limits for counting and binned analyses", "why_tests_cant": "a frame condition over unbounded call sequences and all detector states", "anchors": ["src/DM_Particle_Standard.cpp: Set_Sigma_Proton, Set_Sigma_Neutron, Set_Sigma_Electron, Set_Interaction_Parameter, Fix_Coupling_Ratio, Fix_fn_over_fp, Fix_fp_over_fn, Unfix_Coupling_Ratios", "src/Direct_Detection_Crystal.cpp, src/Direct_Detection_ER.cpp, src/Direct_Detection_Nucleus.cpp, src/Direct_Detection_Migdal.cpp: rates", "src/Direct_Detection.cpp: Upper_Limit"]}
