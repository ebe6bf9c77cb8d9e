import Verif.Props.Crystal
import Verif.Props.IonizationRates
import Verif.Lemmas.Quadrature
import Verif.Spec.Quadrature

/-!
# Property C114: sums over grids approximate the integrals they stand for
-/

namespace Obscura

open Spec MeasureTheory

variable {U : Units} {I : Integrator} {S : ShellRate} {p : DMParticle} {h : Distribution} {c : Crystal} {e : AtomicElectron}

/-- C114 (semiconductors): the rate differs from the integral over momentum transfers by at most one step of the table times the
variation of the integrand. -/
theorem C114_crystal (hI : I.Exact) (hc : BuiltCrystal U c) (hm : 0 < p.mass) (hdens : 0 ≤ h.density) {E V : ℝ} (hE : 0 ≤ E)
    (heta : p.useEtaFunction = true → h.useEta = true → ∀ v, 0 ≤ v → v ≤ h.vMax → EtaAt h v)
    (hV : VariesByAtMost (crystalPerMomentum U p h c E) 0 c.qMax V) :
    ∃ r, dRdEeCrystal U I E p h c = .ok r ∧
      |r - crystalIntegral U p h c E| ≤ h.density / (p.mass * c.mCell) * (0.02 * U.aEM * U.mElectron * V) := by
  have hf := CrystalFacts.of_built hc
  have hdq := hf.dq_pos
  have hM := hf.mCell_pos
  refine ⟨_, C42_crystal hI hc hm hE heta, ?_⟩
  have key := riemann_right (f := crystalPerMomentum U p h c E) (w := fun _ => 1) (u := fun i => (i : ℝ) * c.dq) (n := c.nq) (δ := c.dq)
    (V := V) (fun i j hij => by
      have : (i : ℝ) ≤ j := by exact_mod_cast hij
      show (i : ℝ) * c.dq ≤ j * c.dq
      gcongr) (by
      simp only [Nat.cast_zero, zero_mul]
      rw [hf.nq]
      have := hV.2
      rw [hf.qMax] at this
      exact_mod_cast this) hV.1 continuousOn_const (fun _ _ => zero_le_one) hdq.le (fun i _ => by
        rw [intervalIntegral.integral_const, smul_eq_mul]
        push_cast
        ring)
  simp only [mul_one, Nat.cast_zero, zero_mul] at key
  have hq : (c.nq : ℝ) * c.dq = c.qMax := by rw [hf.nq, hf.qMax]; norm_num
  rw [hq] at key
  unfold crystalRate crystalIntegral
  rw [← mul_sub, abs_mul, abs_of_nonneg (by positivity)]
  refine mul_le_mul_of_nonneg_left ?_ (by positivity)
  rw [← hf.dq]
  have e : ∀ i : ℕ, 2 * (((i : ℝ) + 1) * c.dq) * c.dq *
      ∫ v in {v : ℝ | v ≤ h.vMax ∧ E ≤ ((i : ℝ) + 1) * c.dq * v - (((i : ℝ) + 1) * c.dq) ^ 2 / (2 * p.mass)},
        v * h.pdfSpeed v * crystalCrossSection U p c (((i : ℝ) + 1) * c.dq) E v =
      c.dq * crystalPerMomentum U p h c E (((i + 1 : ℕ) : ℝ) * c.dq) := fun i => by
    unfold crystalPerMomentum CanTransfer
    push_cast
    ring
  rw [Finset.sum_congr rfl fun i _ => e i]
  exact key

theorem mem_pairs_set (hc : BuiltCrystal U c) {Q : ℕ} (h1 : 1 ≤ Q) {j : ℕ} (hj : j < c.nE) :
    ((∃ n, c.electronHolePairs (gridEnergy c j) = .ok n ∧ Q ≤ n) ↔ c.gap + ((Q : ℝ) - 1) * c.epsilon < gridEnergy c j) ∧
    (c.electronHolePairs (gridEnergy c j) = .ok Q ↔
      c.gap + ((Q : ℝ) - 1) * c.epsilon < gridEnergy c j ∧ gridEnergy c j ≤ c.gap + (Q : ℝ) * c.epsilon) := by
  obtain ⟨n, hn, hn'⟩ := grid_pairs hc hj
  have a1 := hn' Q h1
  have a2 := hn' (Q + 1) (by omega)
  unfold Crystal.minimumElectronEnergy at a1 a2
  push_cast at a1 a2
  rw [show c.epsilon * ((Q : ℝ) - 1) + c.gap = c.gap + ((Q : ℝ) - 1) * c.epsilon by ring] at a1
  rw [show c.epsilon * ((Q : ℝ) + 1 - 1) + c.gap = c.gap + (Q : ℝ) * c.epsilon by ring] at a2
  rw [hn, ← a1, ← not_lt (a := c.gap + (Q : ℝ) * c.epsilon), ← a2, Outcome.ok.injEq]
  constructor
  · exact ⟨fun ⟨m, e, h⟩ => by cases e; exact h, fun h => ⟨n, rfl, h⟩⟩
  · omega

/-- C114 (electron-hole pairs): the rate of events with `Q` pairs differs from the integral of the spectrum over the energies that
create `Q` pairs by at most `0.1 eV` times the variation of the spectrum and twice its largest value there. -/
theorem C114_pairs (hc : BuiltCrystal U c) {Q : ℕ} (h1 : 1 ≤ Q) {f : ℝ → ℝ} {V M : ℝ}
    (hr : ∀ E, 0 < E → E ≤ c.eMax → dRdEeCrystal U I E p h c = .ok (f E))
    (htop : c.gap + (Q : ℝ) * c.epsilon ≤ c.eMax)
    (hM : ∀ E, c.gap + ((Q : ℝ) - 1) * c.epsilon ≤ E → E ≤ c.gap + (Q : ℝ) * c.epsilon → 0 ≤ f E ∧ f E ≤ M)
    (hV : VariesByAtMost f (c.gap + ((Q : ℝ) - 1) * c.epsilon) (c.gap + (Q : ℝ) * c.epsilon) V) :
    ∃ r, rQCrystal U I Q p h c = .ok r ∧
      |r - ∫ E in c.gap + ((Q : ℝ) - 1) * c.epsilon..c.gap + (Q : ℝ) * c.epsilon, f E| ≤ 0.1 * U.eV * (V + 2 * M) := by
  have hf := CrystalFacts.of_built hc
  have hd := hf.dE_pos
  have he := hf.eps_pos
  have hev := U.eV_pos
  have h1' : (1 : ℝ) ≤ Q := by exact_mod_cast h1
  have hgap : 0 < c.gap := by rcases hf.target with ⟨_, k, _⟩ | ⟨_, k, _⟩ <;> rw [k] <;> positivity
  have h2 : Q ≤ 50000000 := by
    have : (Q : ℝ) ≤ 50000000 := by
      rw [hf.eMax, hf.dE] at htop
      rcases hf.target with ⟨_, k1, k2, _⟩ | ⟨_, k1, k2, _⟩ <;> rw [k1, k2] at htop <;> nlinarith
    exact_mod_cast this
  have hg : ∀ j < c.nE, dRdEeCrystal U I (gridEnergy c j) p h c = .ok (f (gridEnergy c j)) := fun j hj => by
    refine hr _ (gridEnergy_pos hc j) ?_
    rw [hf.nE] at hj
    rw [hf.eMax]
    unfold gridEnergy
    have : (j : ℝ) + 1 ≤ 500 := by exact_mod_cast hj
    gcongr
  refine ⟨_, (C44_contents hc h1 h2 hg).1, ?_⟩
  rw [← hf.dE]
  unfold gridSum
  refine riemann_bin (n := c.nE) hd (by nlinarith) (by nlinarith) ?_ hV.2 hV.1 (fun x hx => hM x hx.1 hx.2) fun j => ?_
  · rw [hf.nE]
    rw [hf.eMax] at htop
    exact_mod_cast htop
  · simp only [Finset.mem_filter, Finset.mem_range]
    exact and_congr_right fun hj => (mem_pairs_set hc h1 hj).2

/-- C114 (all events from `Q` pairs on): likewise, up to the end of the table at `50 eV`. -/
theorem C114_total (hc : BuiltCrystal U c) {Q : ℕ} (h1 : 1 ≤ Q) {f : ℝ → ℝ} {V M : ℝ}
    (hr : ∀ E, 0 < E → E ≤ 50 * U.eV → dRdEeCrystal U I E p h c = .ok (f E))
    (htop : c.gap + ((Q : ℝ) - 1) * c.epsilon ≤ 50 * U.eV)
    (hM : ∀ E, c.gap + ((Q : ℝ) - 1) * c.epsilon ≤ E → E ≤ 50 * U.eV → 0 ≤ f E ∧ f E ≤ M)
    (hV : VariesByAtMost f (c.gap + ((Q : ℝ) - 1) * c.epsilon) (50 * U.eV) V) :
    ∃ r, rTotalCrystal U I Q p h c = .ok r ∧
      |r - ∫ E in c.gap + ((Q : ℝ) - 1) * c.epsilon..50 * U.eV, f E| ≤ 0.1 * U.eV * (V + 2 * M) := by
  have hf := CrystalFacts.of_built hc
  have hd := hf.dE_pos
  have he := hf.eps_pos
  have hev := U.eV_pos
  have h1' : (1 : ℝ) ≤ Q := by exact_mod_cast h1
  have hgap : 0 < c.gap := by rcases hf.target with ⟨_, k, _⟩ | ⟨_, k, _⟩ <;> rw [k] <;> positivity
  have h2 : Q ≤ 50000000 := by
    have : (Q : ℝ) ≤ 50000000 := by
      rcases hf.target with ⟨_, k1, k2, _⟩ | ⟨_, k1, k2, _⟩ <;> rw [k1, k2] at htop <;> nlinarith
    exact_mod_cast this
  have hle : ∀ j < c.nE, gridEnergy c j ≤ 50 * U.eV := fun j hj => by
    rw [hf.nE] at hj
    unfold gridEnergy
    have : (j : ℝ) + 1 ≤ 500 := by exact_mod_cast hj
    rw [hf.dE]
    nlinarith
  refine ⟨_, (C44_contents hc h1 h2 fun j hj => hr _ (gridEnergy_pos hc j) (hle j hj)).2, ?_⟩
  rw [← hf.dE]
  unfold gridSum
  refine riemann_bin (n := c.nE) hd (by nlinarith) htop ?_ hV.2 hV.1 (fun x hx => hM x hx.1 hx.2) fun j => ?_
  · rw [hf.nE, hf.dE]
    norm_num
    linarith
  · simp only [Finset.mem_filter, Finset.mem_range]
    exact and_congr_right fun hj => (mem_pairs_set hc h1 hj).1.trans ⟨fun h => ⟨h, hle j hj⟩, fun h => h.1⟩

/-! ## Ionization -/

theorem least_transfer_empty {m v B E lo : ℝ} (hm : 0 < m) (hv : 0 < v) (hE : 0 < E) (hlo0 : 0 < lo)
    (hlo : IsLeast {q | CanTransfer m v q B} lo) (w : ℝ) : ¬ (w ≤ v ∧ CanTransfer m w lo (B + E)) := by
  rintro ⟨h1, h2⟩
  unfold CanTransfer at h2
  set t := min lo (E / v)
  have t0 : 0 < t := lt_min hlo0 (by positivity)
  have t1 : t ≤ lo := min_le_left _ _
  have t2 : t * v ≤ E := by
    have := min_le_right lo (E / v)
    rwa [le_div_iff₀ hv] at this
  have : lo ≤ lo - t := hlo.2 (show CanTransfer m v (lo - t) B by
    unfold CanTransfer
    have h3 : (lo - t) ^ 2 / (2 * m) ≤ lo ^ 2 / (2 * m) := by
      gcongr
      linarith
    have h4 : lo * w ≤ lo * v := by gcongr
    nlinarith)
  linarith

/-- C114 (ionization): the rate of a shell differs from the integral over momentum transfers by at most one step of the grid times the
variation of the integrand with respect to the logarithm of the momentum transfer. -/
theorem C114_electron_recoil (hI : I.Exact) {d : Detector} {n : Nucleus} (hm : 0 < p.mass) (hv : 0 < h.vMax) (hB : 0 < e.binding)
    (hM : 0 < n.averageMass) (hdens : 0 ≤ h.density) (hflat : 0 ≤ d.flatEfficiency)
    {E lo hi V : ℝ} (hE : 0 < E) (hlo : IsLeast {q | CanTransfer p.mass h.vMax q e.binding} lo)
    (hhi : IsGreatest {q | CanTransfer p.mass h.vMax q e.binding} hi) (htab : lo ≤ e.qMax)
    (heta : p.useEtaFunction = true → h.useEta = true → ∀ v, 0 < v → v ≤ h.vMax → EtaAt h v)
    (hV : VariesByAtMost (fun q => q * ionizationPerMomentum U p h e E q) lo (min hi e.qMax) V) :
    ∃ r, shellRateER U I h d E p n e = .ok r ∧
      |r - d.flatEfficiency * ionizationIntegral U p h n.averageMass e lo (min hi e.qMax) E| ≤
        d.flatEfficiency * (h.density / (p.mass * n.averageMass) * (Real.log (min hi e.qMax / lo) / 99 * V)) := by
  obtain ⟨_, _, _, hlo0, hle⟩ := qMinER_eq hm hv hB hlo hhi
  refine ⟨_, C42_electron_recoil hI hm hv hB hE hlo hhi htab heta, ?_⟩
  have hmin : lo ≤ min hi e.qMax := le_min hle htab
  set top := min hi e.qMax with htop
  have key := riemann_log (n := 99) (by norm_num) hlo0 hmin hV.2 hV.1
  unfold ionizationRate ionizationIntegral
  rw [← mul_sub, ← mul_sub, abs_mul, abs_mul, abs_of_nonneg hflat, abs_of_nonneg (by positivity)]
  refine mul_le_mul_of_nonneg_left (mul_le_mul_of_nonneg_left ?_ (by positivity)) hflat
  have e0 : ∫ x in lo..top, x * ionizationPerMomentum U p h e E x * x⁻¹ = ∫ x in lo..top, ionizationPerMomentum U p h e E x := by
    refine intervalIntegral.integral_congr fun x hx => ?_
    rw [Set.uIcc_of_le hmin] at hx
    have : x ≠ 0 := (hlo0.trans_le hx.1).ne'
    show x * _ * x⁻¹ = _
    field_simp
  rw [e0] at key
  rw [Finset.sum_range_succ']
  have ez : ∫ v in {v : ℝ | v ≤ h.vMax ∧ CanTransfer p.mass v (lo * (top / lo) ^ (((0 : ℕ) : ℝ) / 99)) (e.binding + E)},
      v * h.pdfSpeed v * ionizationCrossSection U p e (lo * (top / lo) ^ (((0 : ℕ) : ℝ) / 99)) E v = 0 := by
    have : {v : ℝ | v ≤ h.vMax ∧ CanTransfer p.mass v (lo * (top / lo) ^ (((0 : ℕ) : ℝ) / 99)) (e.binding + E)} = ∅ := by
      rw [Nat.cast_zero, zero_div, Real.rpow_zero, mul_one]
      exact Set.eq_empty_of_forall_notMem fun w hw => least_transfer_empty hm hv hE hlo0 hlo w hw
    rw [this, setIntegral_empty]
  rw [ez, mul_zero, add_zero]
  have es : ∀ i : ℕ, 2 * (lo * (top / lo) ^ (((i + 1 : ℕ) : ℝ) / 99)) ^ 2 * (Real.log (top / lo) / 99) *
      ∫ v in {v : ℝ | v ≤ h.vMax ∧ CanTransfer p.mass v (lo * (top / lo) ^ (((i + 1 : ℕ) : ℝ) / 99)) (e.binding + E)},
        v * h.pdfSpeed v * ionizationCrossSection U p e (lo * (top / lo) ^ (((i + 1 : ℕ) : ℝ) / 99)) E v =
      Real.log (top / lo) / 99 * ((lo * (top / lo) ^ (((i + 1 : ℕ) : ℝ) / 99)) *
        ionizationPerMomentum U p h e E (lo * (top / lo) ^ (((i + 1 : ℕ) : ℝ) / 99))) := fun i => by
    unfold ionizationPerMomentum
    ring
  rw [Finset.sum_congr rfl fun i _ => es i]
  exact_mod_cast key

/-! ## Numbers of electrons -/

theorem kinetic_grid {a b x : ℝ} (ha : 0 < a) (hb : 0 < b) :
    kinetic U (a * (b / a) ^ x) = kinetic U a * (kinetic U b / kinetic U a) ^ x := by
  have hme := U.mElectron_pos
  unfold kinetic
  have : b ^ 2 / (2 * U.mElectron) / (a ^ 2 / (2 * U.mElectron)) = (b / a) ^ 2 := by field_simp
  rw [this, mul_pow, ← Real.rpow_natCast ((b / a) ^ x) 2, ← Real.rpow_natCast (b / a) 2, ← Real.rpow_mul (by positivity),
    ← Real.rpow_mul (by positivity), mul_comm x]
  ring

theorem spectrumSum_accuracy (hb : BuiltShell e) (hn : 2 ≤ e.kGrid.length) {g : ℝ → ℝ} {V : ℝ}
    (hV : VariesByAtMost (fun E => E * g E) (kinetic U e.kMin) (kinetic U e.kMax) V) :
    |spectrumSum U e g - ∫ E in kinetic U e.kMin..kinetic U e.kMax, g E| ≤
      Real.log (kinetic U e.kMax / kinetic U e.kMin) / ((e.kGrid.length : ℝ) - 1) * (V + |kinetic U e.kMin * g (kinetic U e.kMin)|) ∧
    spectrumSum U e g = ∑ i ∈ Finset.range e.kGrid.length, Real.log (kinetic U e.kMax / kinetic U e.kMin) / ((e.kGrid.length : ℝ) - 1) *
      (kinetic U e.kMin * (kinetic U e.kMax / kinetic U e.kMin) ^ ((i : ℝ) / ((e.kGrid.length : ℝ) - 1)) *
        g (kinetic U e.kMin * (kinetic U e.kMax / kinetic U e.kMin) ^ ((i : ℝ) / ((e.kGrid.length : ℝ) - 1)))) := by
  have hme := U.mElectron_pos
  obtain ⟨P, t, el, N, L, B, k0, k1, q0, q1, s, hk0, hk, _, _, hmk⟩ := hb
  obtain ⟨_, _, _, _, _, _, _, _, _, _, e1, e2, _, _, nk, nq, _, _, _, _, e3, _, e4, _⟩ := AtomicElectron.make_eq hmk
  have hlen : e.kGrid.length = nk := by rw [e3, logSpace_length]
  rw [hlen] at hn ⊢
  rw [e1, e2] at hV ⊢
  have hk1 := hk0.trans hk
  have kin0 : 0 < kinetic U k0 := by unfold kinetic; positivity
  have kin1 : kinetic U k0 ≤ kinetic U k1 := by unfold kinetic; gcongr
  have hlog : Real.log (kinetic U k1 / kinetic U k0) = 2 * Real.log (k1 / k0) := by
    unfold kinetic
    rw [show k1 ^ 2 / (2 * U.mElectron) / (k0 ^ 2 / (2 * U.mElectron)) = (k1 / k0) ^ 2 by field_simp, Real.log_pow]
    push_cast
    ring
  have eq : spectrumSum U e g = ∑ i ∈ Finset.range nk, Real.log (kinetic U k1 / kinetic U k0) / ((nk : ℝ) - 1) *
      (kinetic U k0 * (kinetic U k1 / kinetic U k0) ^ ((i : ℝ) / ((nk : ℝ) - 1)) *
        g (kinetic U k0 * (kinetic U k1 / kinetic U k0) ^ ((i : ℝ) / ((nk : ℝ) - 1)))) := by
    unfold spectrumSum
    rw [hlen, e1, e2, e3]
    unfold logSpace
    rw [List.map_map, range_sum]
    refine Finset.sum_congr rfl fun i _ => ?_
    rw [hlog, ← kinetic_grid hk0 hk1]
    simp only [Function.comp]
    unfold kinetic
    ring
  refine ⟨?_, eq⟩
  rw [eq]
  obtain ⟨n, rfl⟩ : ∃ n, nk = n + 1 := ⟨nk - 1, by omega⟩
  have hn0 : 0 < n := by omega
  have hcast : (((n + 1 : ℕ) : ℝ) - 1) = n := by push_cast; ring
  rw [hcast, Finset.sum_range_succ']
  have key := riemann_log hn0 kin0 kin1 hV.2 hV.1
  have e0 : ∫ x in kinetic U k0..kinetic U k1, x * g x * x⁻¹ = ∫ x in kinetic U k0..kinetic U k1, g x := by
    refine intervalIntegral.integral_congr fun x hx => ?_
    rw [Set.uIcc_of_le kin1] at hx
    have : x ≠ 0 := (kin0.trans_le hx.1).ne'
    show x * _ * x⁻¹ = _
    field_simp
  rw [e0] at key
  rw [Nat.cast_zero, zero_div, Real.rpow_zero, mul_one, add_sub_right_comm, mul_add]
  refine (abs_add_le _ _).trans (add_le_add key ?_)
  rw [abs_mul, abs_of_nonneg]
  have : 1 ≤ kinetic U k1 / kinetic U k0 := by rw [le_div_iff₀ kin0]; linarith
  exact div_nonneg (Real.log_nonneg this) (by positivity)

theorem kGrid_mem (hb : BuiltShell e) {k : ℝ} (hk : k ∈ e.kGrid) : 0 < k ∧ k ≤ e.kMax := by
  obtain ⟨P, t, el, N, L, B, k0, k1, q0, q1, s, hk0, hk01, _, _, hmk⟩ := hb
  obtain ⟨_, _, _, _, _, _, _, _, _, _, e1, e2, _, _, nk, nq, _, _, hnk, _, e3, _, e4, _⟩ := AtomicElectron.make_eq hmk
  rw [e3] at hk
  rw [e2]
  refine ⟨logSpace_pos hk0 (hk0.trans hk01) hk, ?_⟩
  unfold logSpace at hk
  obtain ⟨i, hi, rfl⟩ := List.mem_map.1 hk
  have hi := List.mem_range.1 hi
  have hn : (0 : ℝ) < (nk : ℝ) - 1 := by
    have : (2 : ℝ) ≤ nk := by exact_mod_cast (by omega : 2 ≤ nk)
    linarith
  have h1 : (i : ℝ) / ((nk : ℝ) - 1) ≤ 1 := by
    rw [div_le_one hn]
    have : (i : ℝ) + 1 ≤ nk := by exact_mod_cast hi
    linarith
  have h2 : 1 ≤ k1 / k0 := by rw [le_div_iff₀ hk0]; linarith
  calc k0 * (k1 / k0) ^ ((i : ℝ) / ((nk : ℝ) - 1)) ≤ k0 * (k1 / k0) ^ (1 : ℝ) := by gcongr
    _ = k1 := by rw [Real.rpow_one]; field_simp

/-- C114 (numbers of electrons): the rate of events with `ne` electrons in a shell differs from the integral of the energy spectrum
weighted with the probability to release `ne` electrons by at most one step of the grid times the variation of the integrand and its
value at the lowest tabulated energy. -/
theorem C114_electrons_partial {d : Detector} {n : Nucleus} {W : ℝ} (hb : BuiltShell e) (hn : 2 ≤ e.kGrid.length) (hW : 0 < W) {g : ℝ → ℝ}
    (hg : ∀ E, 0 < E → S d E p n e = .ok (g E))
    (hmax : (e.secondaries : ℝ) + kinetic U e.kMax / W < 2 ^ 32 - 1) {ne : ℕ} (hne : ne < 2 ^ 32) {V : ℝ}
    (hV : VariesByAtMost (fun E => E * (releaseProbability (extraElectrons e W E) ne * g E)) (kinetic U e.kMin) (kinetic U e.kMax) V) :
    ∃ r, IonizationDetector.rNeShell U S d ne p W n e = .ok r ∧
      |r - ∫ E in kinetic U e.kMin..kinetic U e.kMax, releaseProbability (extraElectrons e W E) ne * g E| ≤
        Real.log (kinetic U e.kMax / kinetic U e.kMin) / ((e.kGrid.length : ℝ) - 1) *
          (V + |kinetic U e.kMin * (releaseProbability (extraElectrons e W (kinetic U e.kMin)) ne * g (kinetic U e.kMin))|) := by
  have hme := U.mElectron_pos
  refine ⟨_, rNeShell_eq hb hW hne (fun k hk => ?_) (fun k hk => hg _ ?_), (spectrumSum_accuracy hb hn hV).1⟩
  · have h2 : k ^ 2 / (2 * U.mElectron) ≤ kinetic U e.kMax := by
      unfold kinetic
      have := (kGrid_mem hb hk).1
      gcongr
      exact (kGrid_mem hb hk).2
    have : k ^ 2 / (2 * U.mElectron) / W ≤ kinetic U e.kMax / W := by gcongr
    linarith
  · have := (kGrid_mem hb hk).1
    positivity

/-- C114 fails without the additional term: for a spectrum that falls with the inverse energy the integrand is constant in the logarithm
of the energy. Yet the rates add up to more than the integral, because a grid of `N` points has `N - 1` steps and all `N` points count. -/
theorem C114_fails_electrons {d : Detector} {n : Nucleus} {W : ℝ} (hb : BuiltShell e) (hn : 2 ≤ e.kGrid.length) (hW : 0 < W)
    (hg : ∀ E, 0 < E → S d E p n e = .ok (1 / E)) {M : ℕ} (hM : M < 2 ^ 32)
    (hmax : (e.secondaries : ℝ) + kinetic U e.kMax / W ≤ (M : ℝ) - 1) :
    VariesByAtMost (fun E => E * (1 / E)) (kinetic U e.kMin) (kinetic U e.kMax) 0 ∧
    ∃ r : ℕ → ℝ, (∀ ne < 2 ^ 32, IonizationDetector.rNeShell U S d ne p W n e = .ok (r ne)) ∧
      ∑ ne ∈ Finset.Icc 1 M, r ne = (e.kGrid.length : ℝ) / ((e.kGrid.length : ℝ) - 1) *
        ∫ E in kinetic U e.kMin..kinetic U e.kMax, 1 / E ∧
      ∫ E in kinetic U e.kMin..kinetic U e.kMax, 1 / E < ∑ ne ∈ Finset.Icc 1 M, r ne := by
  have hme := U.mElectron_pos
  have hpos : 0 < e.kMin ∧ e.kMin < e.kMax := by
    obtain ⟨P, t, el, N, L, B, k0, k1, q0, q1, s, hk0, hk01, _, _, hmk⟩ := hb
    obtain ⟨_, _, _, _, _, _, _, _, _, _, e1, e2, _⟩ := AtomicElectron.make_eq hmk
    rw [e1, e2]
    exact ⟨hk0, hk01⟩
  have kin0 : 0 < kinetic U e.kMin := by
    have := hpos.1
    unfold kinetic
    positivity
  have kin1 : kinetic U e.kMin < kinetic U e.kMax := by
    have := hpos.1
    have := hpos.2
    unfold kinetic
    gcongr
  have hvar : VariesByAtMost (fun E => E * (1 / E)) (kinetic U e.kMin) (kinetic U e.kMax) 0 := by
    refine ⟨le_rfl, ?_⟩
    rw [eVariationOn.congr (g := fun _ => (1 : ℝ)) fun x hx => by
      have : x ≠ 0 := (kin0.trans_le hx.1).ne'
      show x * (1 / x) = 1
      field_simp]
    exact (eVariationOn.constant_on (by rintro _ ⟨_, _, rfl⟩ _ ⟨_, _, rfl⟩; rfl)).trans_le zero_le
  refine ⟨hvar, ?_⟩
  obtain ⟨r, r1, -, r2⟩ := C65_shell (S := S) (p := p) (d := d) (n := n) (g := fun E => 1 / E) hb hW (fun k hk => hg _ (by
    have := (kGrid_mem hb hk).1
    positivity)) hM (fun k hk => by
    have h2 : k ^ 2 / (2 * U.mElectron) ≤ kinetic U e.kMax := by
      unfold kinetic
      have := (kGrid_mem hb hk).1
      gcongr
      exact (kGrid_mem hb hk).2
    have : k ^ 2 / (2 * U.mElectron) / W ≤ kinetic U e.kMax / W := by gcongr
    linarith)
  have hlog : 0 < Real.log (kinetic U e.kMax / kinetic U e.kMin) := Real.log_pos (by rwa [one_lt_div kin0])
  have hN : (2 : ℝ) ≤ e.kGrid.length := by exact_mod_cast hn
  have hint : ∫ E in kinetic U e.kMin..kinetic U e.kMax, 1 / E = Real.log (kinetic U e.kMax / kinetic U e.kMin) :=
    integral_one_div_of_pos kin0 (kin0.trans kin1)
  have heq : ∑ ne ∈ Finset.Icc 1 M, r ne = (e.kGrid.length : ℝ) / ((e.kGrid.length : ℝ) - 1) *
      Real.log (kinetic U e.kMax / kinetic U e.kMin) := by
    rw [r2, (spectrumSum_accuracy hb hn hvar).2]
    rw [Finset.sum_congr rfl fun i _ => show _ = Real.log (kinetic U e.kMax / kinetic U e.kMin) / ((e.kGrid.length : ℝ) - 1) by
      have : 0 < kinetic U e.kMin * (kinetic U e.kMax / kinetic U e.kMin) ^ ((i : ℝ) / ((e.kGrid.length : ℝ) - 1)) := by
        have := kin0.trans kin1
        positivity
      rw [mul_one_div_cancel this.ne', mul_one]]
    rw [Finset.sum_const, Finset.card_range, nsmul_eq_mul]
    ring
  refine ⟨r, r1, by rw [heq, hint], ?_⟩
  rw [heq, hint]
  have : 1 < (e.kGrid.length : ℝ) / ((e.kGrid.length : ℝ) - 1) := by
    rw [one_lt_div (by linarith)]
    linarith
  nlinarith

end Obscura
