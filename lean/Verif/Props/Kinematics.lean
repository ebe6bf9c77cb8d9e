import Verif.Model.Kinematics

/-!
# Properties C12–C14: scattering kinematics
-/

namespace Obscura

variable {m M : ℝ}

/-! ## C12 — elastic nuclear recoils -/

/-- C12: a recoil of energy `E` needs speed at least `v` exactly if it is at most the maximal recoil energy at `v`. -/
theorem C12_galois (hm : 0 < m) (hM : 0 < M) {E v : ℝ} (hv : 0 ≤ v) :
    vMinimalNucleus E m M ≤ v ↔ E ≤ maximumNuclearRecoilEnergy v m M := by
  have hmu := reducedMass_pos hm hM
  unfold vMinimalNucleus maximumNuclearRecoilEnergy
  rw [Real.sqrt_le_left hv, le_div_iff₀ hM, div_div, div_le_iff₀ (by positivity)]
  constructor <;> intro h <;> nlinarith

/-- C12: the two functions are inverse to each other on non-negative arguments. -/
theorem C12_inverse (hm : 0 < m) (hM : 0 < M) :
    (∀ E, 0 ≤ E → maximumNuclearRecoilEnergy (vMinimalNucleus E m M) m M = E) ∧
    (∀ v, 0 ≤ v → vMinimalNucleus (maximumNuclearRecoilEnergy v m M) m M = v) := by
  have hmu := reducedMass_pos hm hM
  constructor
  · intro E hE
    unfold vMinimalNucleus maximumNuclearRecoilEnergy
    rw [mul_assoc 2, Real.mul_self_sqrt (by positivity)]
    field_simp
  · intro v hv
    unfold vMinimalNucleus maximumNuclearRecoilEnergy
    have : M * (2 * v * v * reducedMass m M ^ 2 / M) / 2 / reducedMass m M ^ 2 = v ^ 2 := by field_simp
    rw [this, Real.sqrt_sq hv]

/-- C12: both are strictly increasing on non-negative arguments. -/
theorem C12_strictMono (hm : 0 < m) (hM : 0 < M) :
    StrictMonoOn (fun E => vMinimalNucleus E m M) (Set.Ici 0) ∧
    StrictMonoOn (fun v => maximumNuclearRecoilEnergy v m M) (Set.Ici 0) := by
  have hmu := reducedMass_pos hm hM
  constructor
  · intro a ha b hb hab
    unfold vMinimalNucleus
    have ha : 0 ≤ a := ha
    apply Real.sqrt_lt_sqrt (by positivity)
    gcongr
  · intro a ha b hb hab
    have ha : 0 ≤ a := ha
    unfold maximumNuclearRecoilEnergy
    apply div_lt_div_of_pos_right _ hM
    have : a * a < b * b := mul_self_lt_mul_self ha hab
    have h2 : 0 < reducedMass m M ^ 2 := by positivity
    nlinarith

/-- C12: the maximal recoil energy is the energy transferred in a head-on collision: momentum transfer `2 μ v`. -/
theorem C12_head_on (v : ℝ) :
    maximumNuclearRecoilEnergy v m M = (2 * (m * M / (m + M)) * v) ^ 2 / (2 * M) ∧
    (0 < m → 0 < M → maximumNuclearRecoilEnergy v m M ≤ m / 2 * v ^ 2) := by
  constructor
  · unfold maximumNuclearRecoilEnergy reducedMass
    by_cases h : M = 0
    · simp [h]
    · field_simp
  · intro hm hM
    have h : maximumNuclearRecoilEnergy v m M = m / 2 * v ^ 2 * (4 * m * M / (m + M) ^ 2) := by
      unfold maximumNuclearRecoilEnergy reducedMass
      field_simp; ring
    rw [h]
    apply mul_le_of_le_one_right (by positivity)
    rw [div_le_one (by positivity)]
    nlinarith [sq_nonneg (m - M)]

example : vMinimalNucleus 8 1 1 ≤ 4 ∧ maximumNuclearRecoilEnergy 4 1 1 = 8 := by
  have h : maximumNuclearRecoilEnergy 4 1 1 = 8 := by norm_num [maximumNuclearRecoilEnergy, reducedMass]
  exact ⟨(C12_galois one_pos one_pos (by norm_num)).2 h.ge, h⟩

/-! ## C13 — electron recoils -/

/-- C13: the kinetic energy must cover the transferred energy: `v ≥ sqrt(2 ΔE / m)` for every momentum transfer, with
equality at `q = sqrt(2 m ΔE)`. -/
theorem C13_minimal_speed (hm : 0 < m) {dE : ℝ} (hE : 0 < dE) :
    (∀ q, 0 < q → Real.sqrt (2 * dE / m) ≤ vMinimalElectrons q dE m) ∧
    vMinimalElectrons (Real.sqrt (2 * m * dE)) dE m = Real.sqrt (2 * dE / m) := by
  constructor
  · intro q hq
    unfold vMinimalElectrons
    apply Real.sqrt_le_iff.2 ⟨by positivity, ?_⟩
    have h : (dE / q + q / 2 / m) ^ 2 - 2 * dE / m = (dE / q - q / 2 / m) ^ 2 := by field_simp; ring
    nlinarith [sq_nonneg (dE / q - q / 2 / m)]
  · unfold vMinimalElectrons
    have h1 : Real.sqrt (2 * dE / m) = Real.sqrt (2 * m * dE) / m := by
      rw [show 2 * dE / m = (2 * m * dE) / m ^ 2 by field_simp, Real.sqrt_div' _ (by positivity), Real.sqrt_sq hm.le]
    rw [h1]
    have h2 : 0 < Real.sqrt (2 * m * dE) := Real.sqrt_pos.2 (by positivity)
    have h3 : Real.sqrt (2 * m * dE) * Real.sqrt (2 * m * dE) = 2 * m * dE := Real.mul_self_sqrt (by positivity)
    have h4 : dE / Real.sqrt (2 * m * dE) = Real.sqrt (2 * m * dE) / (2 * m) := by
      rw [div_eq_div_iff h2.ne' (by positivity)]; linarith
    rw [h4]; field_simp; norm_num

/-- C13: the two momentum limits used by the ionization rate are exactly the momenta reachable at the maximal speed. -/
theorem C13_momentum_range (hm : 0 < m) {v B q : ℝ} (hB : 0 < B) (hq : 0 < q)
    (hopen : ¬ energeticallyClosed m v B) :
    vMinimalElectrons q B m ≤ v ↔ qMinER m v B ≤ q ∧ q ≤ qMaxER m v B := by
  unfold energeticallyClosed at hopen
  push Not at hopen
  have hD : 0 ≤ m * m * v * v - 2 * m * B := by nlinarith
  have hs := Real.mul_self_sqrt hD
  have hs0 := Real.sqrt_nonneg (m * m * v * v - 2 * m * B)
  unfold vMinimalElectrons qMinER qMaxER
  have h1 : B / q + q / 2 / m ≤ v ↔ (q - m * v) * (q - m * v) ≤ m * m * v * v - 2 * m * B := by
    rw [show B / q + q / 2 / m = (2 * m * B + q * q) / (2 * m * q) by field_simp, div_le_iff₀ (by positivity)]
    constructor <;> intro h <;> nlinarith
  rw [h1]
  have h2 := abs_le_of_sq_le_sq' (a := q - m * v) (b := Real.sqrt (m * m * v * v - 2 * m * B))
  constructor
  · intro h
    have := h2 (by nlinarith) hs0
    constructor <;> linarith [this.1, this.2]
  · rintro ⟨h3, h4⟩
    rw [← hs]
    nlinarith

/-- C13: for any electron energy `Ee ≥ 0` nothing outside these limits is accessible, and closed shells contribute
nothing: the integration misses no part of the rate. -/
theorem C13_range_complete (hm : 0 < m) {v vMax B Ee q : ℝ} (hvm : v ≤ vMax) (hv : 0 < vMax)
    (hB : 0 < B) (hE : 0 ≤ Ee) (hq : 0 < q) (hacc : vMinimalElectrons q (B + Ee) m ≤ v) :
    ¬ energeticallyClosed m vMax B ∧ qMinER m vMax B ≤ q ∧ q ≤ qMaxER m vMax B := by
  have h1 : vMinimalElectrons q B m ≤ vMax := by
    refine le_trans ?_ (hacc.trans hvm)
    unfold vMinimalElectrons; gcongr; linarith
  have hopen : ¬ energeticallyClosed m vMax B := by
    unfold energeticallyClosed
    intro h
    have h2 := ((C13_minimal_speed hm hB).1 q hq).trans h1
    rw [Real.sqrt_le_left hv.le, div_le_iff₀ hm] at h2
    nlinarith
  exact ⟨hopen, (C13_momentum_range hm hB hq hopen).1 h1⟩

example : vMinimalElectrons 1 (1 / 10 + 0) 1 ≤ 1 := by norm_num [vMinimalElectrons]

/-- C13: the minimal speed required falls and then rises with the momentum transfer; larger energies need more speed. -/
theorem C13_monotone_in_energy {q dE dE' : ℝ} (hq : 0 < q) (h : dE ≤ dE') :
    vMinimalElectrons q dE m ≤ vMinimalElectrons q dE' m := by
  unfold vMinimalElectrons; gcongr

/-! ## C14 — Migdal scatterings -/

/-- C14: the Migdal minimal speed is the elastic one plus the cost of ionisation; never below the elastic one. -/
theorem C14_above_elastic {ER Ee B : ℝ} (hE : 0 ≤ Ee) (hB : 0 ≤ B) :
    vMinimalNucleus ER m M ≤ vMinimalMigdal ER Ee m M B ∧ vMinimalMigdal ER 0 m M 0 = vMinimalNucleus ER m M := by
  have h : M * ER / 2 / reducedMass m M / reducedMass m M = M * ER / 2 / reducedMass m M ^ 2 := by
    rw [div_div, sq]
  unfold vMinimalMigdal vMinimalNucleus
  rw [h]
  constructor
  · have := Real.sqrt_nonneg (2 * M * ER)
    have : 0 ≤ (Ee + B) / Real.sqrt (2 * M * ER) := by positivity
    linarith
  · simp

/-- C14: outside the recoil-energy range used by the Migdal rate no halo particle is fast enough. -/
theorem C14_range_complete (hm : 0 < m) (hM : 0 < M) {ER Ee B vMax : ℝ} (hER : 0 < ER) (hE : 0 ≤ Ee) (hB : 0 ≤ B)
    (hv : 0 < vMax) (hout : ER < erMinMigdal vMax M B ∨ erMaxMigdal vMax m M < ER) :
    vMax ≤ vMinimalMigdal ER Ee m M B := by
  have hmu := reducedMass_pos hm hM
  rcases hout with h | h
  · have h1 : vMax ≤ (Ee + B) / Real.sqrt (2 * M * ER) := by
      have h0 : 0 < Real.sqrt (2 * M * ER) := Real.sqrt_pos.2 (by positivity)
      rw [le_div_iff₀ h0]
      have h2 : Real.sqrt (2 * M * ER) ≤ B / vMax := by
        rw [Real.sqrt_le_left (by positivity)]
        unfold erMinMigdal at h
        rw [div_div, lt_div_iff₀ (by positivity)] at h
        nlinarith
      calc vMax * Real.sqrt (2 * M * ER) ≤ vMax * (B / vMax) := by gcongr
        _ = B := by field_simp
        _ ≤ Ee + B := by linarith
    unfold vMinimalMigdal
    have := Real.sqrt_nonneg (M * ER / 2 / reducedMass m M / reducedMass m M)
    linarith
  · have h1 : vMax ≤ vMinimalNucleus ER m M := by
      by_contra hc
      push Not at hc
      have := (C12_galois hm hM hv.le).1 hc.le
      have h2 : maximumNuclearRecoilEnergy vMax m M = erMaxMigdal vMax m M := by
        unfold maximumNuclearRecoilEnergy erMaxMigdal; field_simp
      linarith
    exact h1.trans (C14_above_elastic hE hB).1

example : (5 : ℝ) < erMinMigdal 1 1 4 := by norm_num [erMinMigdal]

end Obscura
