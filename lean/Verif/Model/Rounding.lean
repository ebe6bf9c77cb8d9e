import Verif.Model.Particle
import Verif.Model.Astronomy
import Verif.Model.NuclearDetector

/-!
# Computations with rounding

Everywhere else in the model `double` is the real numbers. Here the functions whose results are stored and read back again and again are modelled with
a rounding `rnd` after every single operation, in the order of the source. With `rnd = id` they are the functions of the exact model (proved in
`Props/Rounding.lean`). Not modelled: overflow, underflow and contracted (fused) operations.
-/

namespace Obscura

namespace Rounded

variable (rnd : ℝ → ℝ)

/-- A rounded quotient; division by zero gives no finite number. As in `src/DM_Particle_Standard.cpp:57`. -/
noncomputable def div (a b : ℝ) : Outcome ℝ := do
  let x ← fdiv a b
  .ok (rnd x)

/-- A rounded square root. As in `src/DM_Particle_Standard.cpp:57`. -/
noncomputable def sqrt (a : ℝ) : Outcome ℝ := do
  let x ← fsqrt a
  .ok (rnd x)

/-- `libphysica::Reduced_Mass(m1, m2)`, `m1 * m2 / (m1 + m2)`. -/
noncomputable def reducedMass (m1 m2 : ℝ) : ℝ := rnd (rnd (m1 * m2) / rnd (m1 + m2))

variable (U : Units)

/-- The expression `prefactor * f * f * Reduced_Mass * Reduced_Mass / M_PI` of `Sigma_Proton` and `Sigma_Neutron`,
`src/DM_Particle_Standard.cpp:199-207`. -/
noncomputable def sigmaOf (prefactor mass f : ℝ) : ℝ :=
  rnd (rnd (rnd (rnd (rnd (prefactor * f) * f) * reducedMass rnd mass U.mProton) * reducedMass rnd mass U.mProton) / rnd Real.pi)

/-- `Sigma_Proton`, `src/DM_Particle_Standard.cpp:199-202`. -/
noncomputable def sigmaProton (p : DMParticle) : ℝ := sigmaOf rnd U p.prefactor p.mass p.fp

/-- `Sigma_Neutron`, `src/DM_Particle_Standard.cpp:204-207`. -/
noncomputable def sigmaNeutron (p : DMParticle) : ℝ := sigmaOf rnd U p.prefactor p.mass p.fn

/-- The expression `sqrt(M_PI * sigma / prefactor) / Reduced_Mass(mass, mProton)`, `src/DM_Particle_Standard.cpp:57,73`. -/
noncomputable def couplingOf (p : DMParticle) (sigma : ℝ) : Outcome ℝ := do
  let x ← div rnd (rnd (rnd Real.pi * sigma)) p.prefactor
  let r ← sqrt rnd x
  div rnd r (reducedMass rnd p.mass U.mProton)

/-- `Set_Sigma_Proton`, `src/DM_Particle_Standard.cpp:55-69`. -/
noncomputable def setSigmaProton (p : DMParticle) (sigma : ℝ) : Outcome DMParticle :=
  if p.fixedRelation then
    if p.fpRel = 0 then .ok { p with fp := 0 }
    else do
      let fp ← couplingOf rnd U p sigma
      let r ← div rnd p.fnRel p.fpRel
      .ok { p with fp := fp, fn := rnd (r * fp) }
  else do
    let fp ← couplingOf rnd U p sigma
    .ok { p with fp := fp }

/-- `Set_Sigma_Neutron`, `src/DM_Particle_Standard.cpp:71-85`. -/
noncomputable def setSigmaNeutron (p : DMParticle) (sigma : ℝ) : Outcome DMParticle :=
  if p.fixedRelation then
    if p.fnRel = 0 then .ok { p with fn := 0 }
    else do
      let fn ← couplingOf rnd U p sigma
      let r ← div rnd p.fpRel p.fnRel
      .ok { p with fn := fn, fp := rnd (r * fn) }
  else do
    let fn ← couplingOf rnd U p sigma
    .ok { p with fn := fn }

/-- `Set_Mass`, `src/DM_Particle_Standard.cpp:28-53`. -/
noncomputable def setMass (p : DMParticle) (m : ℝ) : Outcome DMParticle :=
  if p.fixedRelation then
    if p.fpRel ≠ 0 then setSigmaProton rnd U { p with mass := m } (sigmaProton rnd U p)
    else setSigmaNeutron rnd U { p with mass := m } (sigmaNeutron rnd U p)
  else do
    let p' ← setSigmaProton rnd U { p with mass := m } (sigmaProton rnd U p)
    setSigmaNeutron rnd U p' (sigmaNeutron rnd U p)

/-- `Get_Interaction_Parameter`, `src/DM_Particle_Standard.cpp:93-109`. -/
noncomputable def getInteractionParameter (p : DMParticle) (target : String) : Outcome ℝ :=
  if target = "Nuclei" then
    if 0 < p.fpRel then .ok (sigmaProton rnd U p) else .ok (sigmaNeutron rnd U p)
  else if target = "Electrons" then .ok p.sigmaElectron
  else .exit

/-- `Set_Interaction_Parameter`, `src/DM_Particle_Standard.cpp:111-127`. -/
noncomputable def setInteractionParameter (p : DMParticle) (par : ℝ) (target : String) : Outcome DMParticle :=
  if target = "Nuclei" then
    if 0 < p.fpRel then setSigmaProton rnd U p par else setSigmaNeutron rnd U p par
  else if target = "Electrons" then .ok (p.setSigmaElectron par)
  else .exit

/-- Setting the parameter to one value after the other. `src/Direct_Detection.cpp:373-383`. -/
noncomputable def probe (p : DMParticle) (target : String) : List ℝ → Outcome DMParticle
  | [] => .ok p
  | x :: xs => do
    let p ← setInteractionParameter rnd U p x target
    probe p target xs

/-- What `DM_Detector::Upper_Limit`, `src/Direct_Detection.cpp:358-397`, does with the particle: the parameter is read (line 362), set to the values
tried by the root finder (374), and set back (386). -/
noncomputable def upperLimit (p : DMParticle) (target : String) (tried : List ℝ) : Outcome DMParticle := do
  let original ← getInteractionParameter rnd U p target
  let p ← probe rnd U p target tried
  setInteractionParameter rnd U p original target

/-- The calls by which a limit curve (`DM_Detector::Upper_Limit_Curve`, `src/Direct_Detection.cpp:399-416`) changes a particle. -/
inductive Call where
  | setMass (m : ℝ)
  | upperLimit (tried : List ℝ)

/-- One call, for a detector with nuclear targets. `src/Direct_Detection.cpp:358-416`, `src/DM_Particle_Standard.cpp:28-53`. -/
noncomputable def step (p : DMParticle) : Call → Outcome DMParticle
  | .setMass m => setMass rnd U p m
  | .upperLimit tried => upperLimit rnd U p "Nuclei" tried

/-- A history of calls. `src/Direct_Detection.cpp:358-416`, `src/DM_Particle_Standard.cpp:28-53`. -/
noncomputable def run (p : DMParticle) : List Call → Outcome DMParticle
  | [] => .ok p
  | c :: cs => do
    let p ← step rnd U p c
    run p cs

/-- `Fractional_Days_since_J2000`, `src/Astronomy.cpp:68-81`, with the constants rounded to `double` as well. Sums of integers in `int` are exact. -/
noncomputable def fractionalDaysSinceJ2000 (day month year : ℤ) (hour minute second : ℝ) : ℝ :=
  let n : ℝ :=
    if month = 1 ∨ month = 2 then
      rnd (0 + rnd ((⌊rnd (rnd 365.25 * ((year - 1 : ℤ) : ℝ))⌋ : ℝ) + (⌊rnd (rnd 30.61 * ((month + 13 : ℤ) : ℝ))⌋ : ℝ)))
    else rnd (0 + rnd ((⌊rnd (rnd 365.25 * (year : ℝ))⌋ : ℝ) + (⌊rnd (rnd 30.61 * ((month + 1 : ℤ) : ℝ))⌋ : ℝ)))
  rnd (n + rnd (rnd (rnd (rnd ((day : ℝ) - rnd 730563.5) + rnd (hour / 24)) + rnd (minute / 1440)) + rnd (second / 86400)))

/-- `std::accumulate(v.begin(), v.end(), 0.0)`. As in `src/Direct_Detection_Nucleus.cpp:57`. -/
noncomputable def accumulate (l : List ℝ) : ℝ := l.foldl (fun a b => rnd (a + b)) 0

/-- The division by the total mass, `src/Direct_Detection_Nucleus.cpp:67-69`. -/
noncomputable def fractions (l : List ℝ) : Outcome (List ℝ) := collect (fun m => div rnd m (accumulate rnd l)) l

/-- The mass fractions computed by the constructor, `src/Direct_Detection_Nucleus.cpp:57-72`. Simplification: no rounding in `Average_Nuclear_Mass`. -/
noncomputable def massFractions (nuclei : List Nucleus) (abund : List ℝ) : Outcome (List ℝ) :=
  open Classical in
  if abund = [] ∨ 1 < accumulate rnd abund then do
    let ms ← collect (fun i => do
      let n ← vecGet nuclei i
      let a ← if abund = [] then .ok 1 else vecGet abund i
      .ok (rnd (a * n.averageMass))) (List.range nuclei.length)
    fractions rnd ms
  else .ok abund

end Rounded
end Obscura
