import Verif.Spec.SingleIsotope
import Verif.Props.NuclearDetector
import Verif.Props.NuclearData

/-!
# C83 — pure isotopes and mixtures of isotopes as targets
-/

namespace Obscura

open Spec

variable {U : Units} {I : Integrator} {p : DMParticle} {h : Distribution}

/-! ## Pure isotopes -/

/-- C83 (pure isotopes; missing: the charge, and isotopes that are taken from the natural element). A nucleus made of one isotope has the
name of the element, one isotope, which can be retrieved by its mass number, and if the abundance of the isotope is one, its mean mass and
its recoil spectrum are those of the isotope. -/
theorem C83_pure_partial {iso : Isotope} (h1 : 1 ≤ iso.Z) (h2 : iso.Z ≤ 118) :
    ∃ n, Nucleus.ofIsotope iso = .ok n ∧ n.numberOfIsotopes = 1 ∧ n.isotopes = [iso] ∧ n.getIsotope iso.A = .ok iso ∧
      (∀ A, A ≠ iso.A → n.getIsotope A = .exit) ∧ (∀ r ∈ shippedRows, r.Z = iso.Z → n.name = r.name) ∧
      (iso.abundance = 1 → n.averageMass = iso.mass ∧ ∀ ER, dRdERNucleus U I ER p h n = dRdERIsotope U I ER p h iso) := by
  have hl : iso.Z - 1 < nucleusNames.length := by rw [names_length]; omega
  refine ⟨{ Z := none, isotopes := [iso], name := nucleusNames[iso.Z - 1] }, ?_, rfl, rfl, ?_, fun A hA => ?_, fun r hr hZ => ?_, fun ha => ⟨?_, fun ER => ?_⟩⟩
  · unfold Nucleus.ofIsotope
    rw [if_neg (by omega), vecGet_lt hl, Outcome.bind_ok]
  · simp [Nucleus.getIsotope]
  · simp [Nucleus.getIsotope, hA.symm]
  · have := eq_of_beq (List.all_eq_true.1 shipped_check.2.2.2 r hr)
    rw [← this, hZ]
    simp [List.getD, hl]
  · simp [Nucleus.averageMass, ha]
  · unfold dRdERNucleus sumOver collect collect
    cases dRdERIsotope U I ER p h iso <;> simp [ha]

/-- Non-vacuity: hydrogen. -/
example (h : Distribution) : ∃ n, Nucleus.ofIsotope (Isotope.default U) = .ok n ∧ n.averageMass = U.mProton := by
  obtain ⟨n, h1, -, -, -, -, -, h2⟩ := C83_pure_partial (U := U) (I := exactIntegrator) (p := DMParticle.standard U 1 1 .SD) (h := h)
    (iso := Isotope.default U) (by simp [Isotope.default]) (by simp [Isotope.default])
  exact ⟨n, h1, (h2 rfl).1⟩

/-- C83 (failure: isotopes of a natural element). Such an isotope carries its natural abundance. The nucleus made of it alone has the mean
mass and the recoil spectrum of the isotope multiplied by this abundance. -/
theorem C83_fails_natural_abundance {iso : Isotope} {n : Nucleus} (hn : Nucleus.ofIsotope iso = .ok n) :
    n.averageMass = iso.abundance * iso.mass ∧
    (∀ ER r, dRdERIsotope U I ER p h iso = .ok r → dRdERNucleus U I ER p h n = .ok (iso.abundance * r)) ∧
    (iso.abundance < 1 → 0 < iso.mass → n.averageMass < iso.mass) := by
  have hi : n.isotopes = [iso] := by
    unfold Nucleus.ofIsotope at hn
    split_ifs at hn
    obtain ⟨name, -, hn⟩ := Outcome.bind_eq_ok.1 hn
    cases hn
    rfl
  have hm : n.averageMass = iso.abundance * iso.mass := by simp [Nucleus.averageMass, hi, mul_comm]
  refine ⟨hm, fun ER r hr => ?_, fun ha h0 => ?_⟩
  · unfold dRdERNucleus
    rw [hi, sumOver_ok (g := fun _ => iso.abundance * r) fun a ha => by rw [List.mem_singleton.1 ha, hr, Outcome.bind_ok]]
    simp
  · rw [hm]; nlinarith

/-- C83 (failure: the charge). The nucleus made of one isotope does not know its charge: printing an atom with this nucleus reads an
uninitialised member. -/
theorem C83_fails_charge {iso : Isotope} {n : Nucleus} (hn : Nucleus.ofIsotope iso = .ok n) {a : Atom} (ha : a.nucleus = n) :
    a.printSummary U 0 = .ub ∧ Atom.printSummary U { a with nucleus := Nucleus.empty } 0 = .ub := by
  have hz : n.Z = none := by
    unfold Nucleus.ofIsotope at hn
    split_ifs at hn
    obtain ⟨name, -, hn⟩ := Outcome.bind_eq_ok.1 hn
    cases hn
    rfl
  constructor
  · unfold Atom.printSummary
    rw [if_pos rfl, ha, hz]
    rfl
  · rfl

/-! ## Mixtures -/

/-- C83 (mixtures; missing: mixtures of isotopes of different masses, see `C83_fails_mixture`). If all isotopes of an element have the
same mass and the abundances add up to one, the recoil spectrum of the element is that of the mixture. -/
theorem C83_mixture_partial {n : Nucleus} {R : Isotope → ℝ} {ER m : ℝ} (hR : ∀ iso ∈ n.isotopes, dRdERIsotope U I ER p h iso = .ok (R iso))
    (hm : ∀ iso ∈ n.isotopes, iso.mass = m) (h0 : 0 < m) (hs : (n.isotopes.map (·.abundance)).sum = 1) :
    dRdERNucleus U I ER p h n = .ok (mixtureRate n.isotopes R) := by
  unfold dRdERNucleus
  rw [sumOver_ok (g := fun iso => iso.abundance * R iso) fun a ha => by rw [hR a ha, Outcome.bind_ok]]
  have e1 : meanMass n.isotopes = m := by
    unfold meanMass
    rw [List.map_congr_left (g := fun iso => iso.abundance * m) fun a ha => by rw [hm a ha], List.sum_map_mul_right, hs, one_mul]
  have e2 : (n.isotopes.map fun iso => iso.abundance * (iso.mass * R iso)).sum = m * (n.isotopes.map fun iso => iso.abundance * R iso).sum := by
    rw [← List.sum_map_mul_left]
    congr 1
    exact List.map_congr_left fun a ha => by rw [hm a ha]; ring
  rw [mixtureRate, e1, e2, mul_div_cancel_left₀ _ h0.ne']

/-- C83 (mixtures, any masses). The recoil spectrum of an element differs from that of the mixture at most by the factors by which the
masses of the isotopes differ from the mean mass. -/
theorem C83_mixture_bounds {n : Nucleus} {R : Isotope → ℝ} {ER lo hi : ℝ} (hR : ∀ iso ∈ n.isotopes, dRdERIsotope U I ER p h iso = .ok (R iso))
    (hR0 : ∀ iso ∈ n.isotopes, 0 ≤ R iso) (ha : ∀ iso ∈ n.isotopes, 0 ≤ iso.abundance) (h0 : 0 < lo)
    (hm : ∀ iso ∈ n.isotopes, lo ≤ iso.mass ∧ iso.mass ≤ hi) (hM : 0 < meanMass n.isotopes) :
    ∃ r, dRdERNucleus U I ER p h n = .ok r ∧ meanMass n.isotopes / hi * mixtureRate n.isotopes R ≤ r ∧
      r ≤ meanMass n.isotopes / lo * mixtureRate n.isotopes R := by
  refine ⟨(n.isotopes.map fun iso => iso.abundance * R iso).sum, ?_, ?_, ?_⟩
  · unfold dRdERNucleus
    exact sumOver_ok fun a ha => by rw [hR a ha, Outcome.bind_ok]
  · have hhi : 0 < hi := by
      rcases hl : n.isotopes with _ | ⟨a, l⟩
      · rw [hl] at hM; simp [meanMass] at hM
      · have := hm a (by rw [hl]; simp); linarith
    rw [mixtureRate, div_mul_div_comm, mul_comm hi, mul_div_mul_left _ _ hM.ne', div_le_iff₀ hhi, ← List.sum_map_mul_right]
    refine List.sum_le_sum fun a h => ?_
    have h1 := hm a h
    have h2 := mul_nonneg (ha a h) (hR0 a h)
    nlinarith
  · rw [mixtureRate, div_mul_div_comm, mul_comm lo, mul_div_mul_left _ _ hM.ne', le_div_iff₀ h0, ← List.sum_map_mul_right]
    refine List.sum_le_sum fun a h => ?_
    have h1 := hm a h
    have h2 := mul_nonneg (ha a h) (hR0 a h)
    nlinarith

/-- C83 (failure: mixtures). The abundances are shares of the number of atoms, but they are used to weight rates per unit mass: for two
isotopes in equal parts, of different masses and different rates, the recoil spectrum is not that of the mixture. -/
theorem C83_fails_mixture {n : Nucleus} {i j : Isotope} (hn : n.isotopes = [i, j]) (hi : i.abundance = 1 / 2) (hj : j.abundance = 1 / 2)
    (h0 : 0 < i.mass) (hm : i.mass < j.mass) {R : Isotope → ℝ} {ER : ℝ} (h1 : dRdERIsotope U I ER p h i = .ok (R i))
    (h2 : dRdERIsotope U I ER p h j = .ok (R j)) (hR : R i ≠ R j) :
    ∃ r, dRdERNucleus U I ER p h n = .ok r ∧ r ≠ mixtureRate n.isotopes R := by
  refine ⟨(n.isotopes.map fun iso => iso.abundance * R iso).sum, ?_, ?_⟩
  · unfold dRdERNucleus
    rw [hn]
    refine sumOver_ok fun a ha => ?_
    rcases List.mem_cons.1 ha with rfl | ha
    · rw [h1, Outcome.bind_ok]
    · rw [List.mem_singleton.1 ha, h2, Outcome.bind_ok]
  · rw [hn]
    simp only [mixtureRate, meanMass, List.map_cons, List.map_nil, List.sum_cons, List.sum_nil, add_zero, hi, hj]
    intro he
    rw [eq_div_iff (by linarith)] at he
    have : (j.mass - i.mass) * (R i - R j) = 0 := by linarith
    rcases mul_eq_zero.1 this with h | h
    · linarith
    · exact hR (by linarith)

/-- Non-vacuity: a spinless isotope and one with spin, and a particle that couples to spins. -/
example (I : Integrator) : ∃ (n : Nucleus) (i j : Isotope) (p : DMParticle) (h : Distribution) (R : Isotope → ℝ), n.isotopes = [i, j] ∧
    i.abundance = 1 / 2 ∧ j.abundance = 1 / 2 ∧ 0 < i.mass ∧ i.mass < j.mass ∧ dRdERIsotope U I 0 p h i = .ok (R i) ∧
    dRdERIsotope U I 0 p h j = .ok (R j) ∧ R i ≠ R j := by
  have hpi := Real.pi_pos
  refine ⟨⟨some 2, [⟨2, 4, 1 / 2, 0, 0, 0, 4⟩, ⟨2, 5, 1 / 2, 1 / 2, 1 / 2, 0, 5⟩], "He"⟩, _, _,
    { DMParticle.standard U 1 3 .SD with fp := 1, fn := 1 }, ⟨1, 0, 1, true, fun _ => 1, fun _ => 1, fun _ => .ok 1⟩,
    fun iso => if iso.A = 4 then 0 else 1 / 5 * (10 * (3 / Real.pi * (1 / 4))), rfl, rfl, rfl, by norm_num, by norm_num, ?_, ?_, ?_⟩
  · simp [dRdERIsotope, vMinimalNucleus, DMParticle.standard, DMParticle.dSigmadERNucleus, DMParticle.dSigmadq2Nucleus]
  · simp [dRdERIsotope, vMinimalNucleus, DMParticle.standard, DMParticle.dSigmadERNucleus, DMParticle.dSigmadq2Nucleus]
    field_simp
    norm_num
    rw [div_eq_div_iff (by positivity) (by positivity)]
    ring
  · simp only [if_true]
    rw [if_neg (by norm_num)]
    positivity

/-! ## The size of the atom -/

/-- C83 (Thomas-Fermi radius). The radius `a` of an atom of charge `Z` is positive and fulfils `128 Z a³ = 9 π² a₀³` with the Bohr radius
`a₀`; for an isotope without charge there is none. -/
theorem C83_thomas_fermi {bohr : ℝ} (hb : 0 < bohr) (iso : Isotope) :
    (1 ≤ iso.Z → ∃ a, iso.thomasFermiRadius bohr = .ok a ∧ 0 < a ∧ 128 * iso.Z * a ^ 3 = 9 * Real.pi ^ 2 * bohr ^ 3) ∧
    (iso.Z = 0 → iso.thomasFermiRadius bohr = .nonfinite) := by
  constructor
  · intro hZ
    have hz : (0 : ℝ) < iso.Z := by exact_mod_cast hZ
    have hpi := Real.pi_pos
    set x : ℝ := 9 * Real.pi * Real.pi / 2 / iso.Z with hx
    have hx0 : 0 < x := by positivity
    refine ⟨x ^ (1 / 3 : ℝ) / 4 * bohr, ?_, by positivity, ?_⟩
    · unfold Isotope.thomasFermiRadius
      rw [fdiv_ok hz.ne', Outcome.bind_ok]
    · have h3 : (x ^ (1 / 3 : ℝ)) ^ 3 = x := by
        rw [← Real.rpow_natCast, ← Real.rpow_mul hx0.le]; norm_num
      rw [mul_pow, div_pow, h3, hx]
      field_simp
      norm_num
  · intro hZ
    unfold Isotope.thomasFermiRadius fdiv
    rw [hZ]
    simp

/-- Non-vacuity: heavier atoms are smaller. -/
example {bohr a b : ℝ} (hb : 0 < bohr) {i j : Isotope} (h1 : 1 ≤ i.Z) (h2 : i.Z < j.Z) (ha : i.thomasFermiRadius bohr = .ok a)
    (hb' : j.thomasFermiRadius bohr = .ok b) : b < a := by
  obtain ⟨a', e1, e2, e3⟩ := (C83_thomas_fermi hb i).1 h1
  obtain ⟨b', e4, e5, e6⟩ := (C83_thomas_fermi hb j).1 (by omega)
  rw [ha] at e1; cases e1
  rw [hb'] at e4; cases e4
  have h1' : (1 : ℝ) ≤ i.Z := by exact_mod_cast h1
  have h2' : (i.Z : ℝ) < j.Z := by exact_mod_cast h2
  by_contra hlt
  have h3 : a ^ 3 ≤ b ^ 3 := pow_le_pow_left₀ e2.le (not_lt.1 hlt) 3
  have h4 : 0 < a ^ 3 := by positivity
  nlinarith

end Obscura
