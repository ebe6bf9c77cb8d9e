import Verif.Spec.Ionization
import Verif.Lemmas.Crystal
import Verif.Props.NuclearData

/-!
# Helper lemmas: atomic targets and ionization detectors
-/

namespace Obscura

open Spec MeasureTheory

variable {U : Units} {I : Integrator} {p p' : DMParticle} {h : Distribution} {e : AtomicElectron}

/-! ### Grids -/

theorem logSpace_length (a b : ℝ) (n : ℕ) : (logSpace a b n).length = n := by simp [logSpace]

theorem logSpace_get {a b : ℝ} {n i : ℕ} (hi : i < n) : vecGet (logSpace a b n) i = .ok (a * (b / a) ^ ((i : ℝ) / ((n : ℝ) - 1))) := by
  rw [vecGet_lt (by rw [logSpace_length]; exact hi)]
  simp [logSpace]

theorem logSpace_pos {a b : ℝ} {n : ℕ} (ha : 0 < a) (hb : 0 < b) {q : ℝ} (hq : q ∈ logSpace a b n) : 0 < q := by
  unfold logSpace at hq
  obtain ⟨i, _, rfl⟩ := List.mem_map.1 hq
  positivity

theorem log_step {a b : ℝ} {n : ℕ} (ha : 0 < a) (hb : 0 < b) :
    Real.log (a * (b / a) ^ (((1 : ℕ) : ℝ) / ((n : ℝ) - 1)) / (a * (b / a) ^ (((0 : ℕ) : ℝ) / ((n : ℝ) - 1)))) =
      Real.log (b / a) / ((n : ℝ) - 1) := by
  rw [mul_div_mul_left _ _ ha.ne']
  simp only [Nat.cast_zero, zero_div, Real.rpow_zero, div_one, Nat.cast_one]
  rw [Real.log_rpow (by positivity)]
  ring

/-! ### Shells -/

theorem AtomicElectron.make_eq {P : Interpolator2D} {tables : ResponseTables} {element : String} {N L : ℕ} {B k0 k1 q0 q1 : ℝ} {s : ℕ}
    (hm : AtomicElectron.make P tables element N L B k0 k1 q0 q1 s = .ok e) :
    ∃ letter rs, shellNames[L]? = some letter ∧ e.name = element ++ "_" ++ toString N ++ letter ∧
      collect (importResponse P tables e.name k0 k1 q0 q1) [1, 2, 3, 4] = .ok rs ∧ e.responses = rs.map (fun r => r.2.2) ∧
      e.n = N ∧ e.l = L ∧ e.binding = B ∧ e.secondaries = s ∧ e.kMin = k0 ∧ e.kMax = k1 ∧ e.qMin = q0 ∧ e.qMax = q1 ∧
      ∃ nk nq, (rs.getD 3 (0, 0, fun _ _ => 0)).1 = nk ∧ (rs.getD 3 (0, 0, fun _ _ => 0)).2.1 = nq ∧ nk ≠ 1 ∧ nq ≠ 1 ∧
        e.kGrid = logSpace k0 k1 nk ∧ e.qGrid = logSpace q0 q1 nq ∧ e.dlogk = log10 (k1 / k0) / ((nk : ℝ) - 1) ∧
        e.dlogq = log10 (q1 / q0) / ((nq : ℝ) - 1) := by
  unfold make at hm
  obtain ⟨letter, h1, hm⟩ := Outcome.bind_eq_ok.1 hm
  dsimp only at hm
  obtain ⟨rs, h2, hm⟩ := Outcome.bind_eq_ok.1 hm
  obtain ⟨⟨nk, nq, f⟩, h3, hm⟩ := Outcome.bind_eq_ok.1 hm
  dsimp only at hm
  obtain ⟨dk, h4, hm⟩ := Outcome.bind_eq_ok.1 hm
  obtain ⟨dq, h5, hm⟩ := Outcome.bind_eq_ok.1 hm
  cases hm
  have hl : shellNames[L]? = some letter := by
    unfold vecGet at h1
    split at h1
    · cases h1; assumption
    · cases h1
  have hr : rs.getD 3 (0, 0, fun _ _ => 0) = (nk, nq, f) := by
    unfold vecGet at h3
    split at h3
    · cases h3; rename_i hh; simp [hh]
    · cases h3
  have hne : ∀ {x : ℝ} {n : ℕ} {y : ℝ}, fdiv x ((n : ℝ) - 1) = .ok y → n ≠ 1 ∧ y = x / ((n : ℝ) - 1) := by
    intro x n y hxy
    unfold fdiv at hxy
    split_ifs at hxy with h0
    cases hxy
    refine ⟨?_, rfl⟩
    rintro rfl
    simp at h0
  refine ⟨letter, rs, hl, rfl, h2, rfl, rfl, rfl, rfl, rfl, rfl, rfl, rfl, rfl, nk, nq, by rw [hr], by rw [hr], (hne h4).1, (hne h5).1, rfl,
    rfl, (hne h4).2, (hne h5).2⟩

theorem AtomicElectron.responses_length (hb : BuiltShell e) : e.responses.length = 4 := by
  obtain ⟨P, t, el, N, L, B, k0, k1, q0, q1, s, _, _, _, _, hm⟩ := hb
  obtain ⟨_, rs, _, _, h2, h3, _⟩ := make_eq hm
  rw [h3, List.length_map, (collect_eq_ok_length h2).1]
  rfl

theorem AtomicElectron.make_ok {P : Interpolator2D} {tables : ResponseTables} {element letter : String} {N L : ℕ} {B k0 k1 q0 q1 : ℝ}
    {s : ℕ} (hL : shellNames[L]? = some letter) (ht : HasTables tables (element ++ "_" ++ toString N ++ letter)) :
    ∃ e, AtomicElectron.make P tables element N L B k0 k1 q0 q1 s = .ok e := by
  unfold make
  have h1 : vecGet shellNames L = .ok letter := by unfold vecGet; rw [hL]
  rw [h1, Outcome.bind_ok]
  dsimp only
  obtain ⟨t1, r1, a1, b1, c1, d1⟩ := ht 1 (by simp)
  obtain ⟨t2, r2, a2, b2, c2, d2⟩ := ht 2 (by simp)
  obtain ⟨t3, r3, a3, b3, c3, d3⟩ := ht 3 (by simp)
  obtain ⟨t4, r4, a4, b4, c4, d4⟩ := ht 4 (by simp)
  have hx : ∀ (x : ℝ) (n : ℕ), 2 ≤ n → ∃ y, fdiv x ((n : ℝ) - 1) = .ok y := fun x n hn => by
    refine ⟨_, fdiv_ok ?_⟩
    have : (2 : ℝ) ≤ n := by exact_mod_cast hn
    linarith
  obtain ⟨y, hy⟩ := hx (log10 (k1 / k0)) _ b4
  obtain ⟨z, hz⟩ := hx (log10 (q1 / q0)) _ d4
  simp only [collect, importResponse, a1, a2, a3, a4, vecGet, c1, c2, c3, c4, Outcome.bind_ok, List.getElem?_cons_succ,
    List.getElem?_cons_zero, hy, hz]
  exact ⟨_, rfl⟩

/-! ### Electron recoils -/

theorem ionization_eq (q E v : ℝ) : ionizationCrossSection U p e q E v = p.d2SigmaIonization U q E v e := by
  unfold ionizationCrossSection DMParticle.d2SigmaIonization
  split
  · simp only [*]
    rw [div_div]
  · simp only [*]

theorem d2SigmaIonization_speed (q E v : ℝ) :
    v * p.d2SigmaIonization U q E v e = 1 / v * ((1 / 1000) * (1 / 1000) * p.d2SigmaIonization U q E (1 / 1000) e) := by
  unfold DMParticle.d2SigmaIonization DMParticle.dSigmadq2Electron
  by_cases hv : v = 0
  · simp [hv]
  · split
    · simp only [*]
      by_cases hE : E = 0
      · simp [hE]
      · field_simp
    · simp

theorem vMin_lt_iff {q E m v : ℝ} (hq : 0 < q) (hm : 0 < m) :
    vMinimalElectrons q E m < v ↔ E < q * v - q ^ 2 / (2 * m) := by
  unfold vMinimalElectrons
  have : E / q + q / 2 / m = (E + q ^ 2 / (2 * m)) / q := by field_simp
  rw [this, div_lt_iff₀ hq]
  constructor <;> intro h <;> linarith

theorem canTransfer_set {q E m vMax : ℝ} (hq : 0 < q) (hm : 0 < m) :
    {v : ℝ | v ≤ vMax ∧ CanTransfer m v q E} = Set.Icc (vMinimalElectrons q E m) vMax := by
  rw [← reach_set_electron hq hm]
  rfl

/-- The reachable momenta are those between the two limits of the code. -/
theorem reachable_momenta {m v B : ℝ} (hm : 0 < m) (hv : 0 < v) (hB : 0 < B) (ho : ¬ energeticallyClosed m v B) (q : ℝ) :
    CanTransfer m v q B ↔ qMinER m v B ≤ q ∧ q ≤ qMaxER m v B := by
  have hmin : 0 < qMinER m v B := by
    unfold qMinER
    have : Real.sqrt (m * m * v * v - 2 * m * B) < m * v := by
      rw [Real.sqrt_lt' (by positivity)]
      nlinarith [mul_pos hm hB]
    linarith
  by_cases hq : 0 < q
  · rw [← C13_momentum_range hm hB hq ho, vMinimalElectrons_le hq hm]; rfl
  · constructor
    · intro hc
      unfold CanTransfer at hc
      have h1 : 0 ≤ q ^ 2 / (2 * m) := by positivity
      have h2 : q * v ≤ 0 := mul_nonpos_of_nonpos_of_nonneg (not_lt.1 hq) hv.le
      linarith
    · intro hc
      exact absurd (hmin.trans_le hc.1) hq

theorem closed_iff {m v B : ℝ} (hm : 0 < m) :
    energeticallyClosed m v B ↔ ∀ q, ¬ CanTransfer m v q B := by
  constructor
  · intro hc q ht
    unfold energeticallyClosed at hc
    unfold CanTransfer at ht
    have h1 : q * v - q ^ 2 / (2 * m) = m / 2 * v * v - (q - m * v) ^ 2 / (2 * m) := by field_simp; ring
    have h2 : 0 ≤ (q - m * v) ^ 2 / (2 * m) := by positivity
    linarith
  · intro hc
    unfold energeticallyClosed
    have h1 := hc (m * v)
    unfold CanTransfer at h1
    have h2 : m * v * v - (m * v) ^ 2 / (2 * m) = m / 2 * v * v := by field_simp; ring
    rw [h2] at h1
    exact not_le.1 h1

theorem qMinER_eq {m v B lo hi : ℝ} (hm : 0 < m) (hv : 0 < v) (hB : 0 < B) (hlo : IsLeast {q | CanTransfer m v q B} lo)
    (hhi : IsGreatest {q | CanTransfer m v q B} hi) :
    ¬ energeticallyClosed m v B ∧ qMinER m v B = lo ∧ qMaxER m v B = hi ∧ 0 < lo ∧ lo ≤ hi := by
  have ho : ¬ energeticallyClosed m v B := fun hc => (closed_iff hm).1 hc lo hlo.1
  have hset : {q | CanTransfer m v q B} = Set.Icc (qMinER m v B) (qMaxER m v B) := by
    ext q; exact reachable_momenta hm hv hB ho q
  rw [hset] at hlo hhi
  have hle : qMinER m v B ≤ qMaxER m v B := hlo.1.1.trans hlo.1.2
  have e1 := (isLeast_Icc hle).unique hlo
  have e2 := (isGreatest_Icc hle).unique hhi
  refine ⟨ho, e1, e2, ?_, by rw [← e1, ← e2]; exact hle⟩
  rw [← e1]
  unfold qMinER
  have : Real.sqrt (m * m * v * v - 2 * m * B) < m * v := by
    rw [Real.sqrt_lt' (by positivity)]
    nlinarith [mul_pos hm hB]
  linarith

theorem dRdEeERTerm_eq (hI : I.Exact) (hm : 0 < p.mass) {E dl q : ℝ} (hq : 0 < q)
    (heta : p.useEtaFunction = true → h.useEta = true → vMinimalElectrons q (e.binding + E) p.mass ≤ h.vMax →
      EtaAt h (vMinimalElectrons q (e.binding + E) p.mass)) :
    dRdEeERTerm U I E dl p h e q = .ok (h.density / p.mass * (2 * q ^ 2 * dl *
      ∫ v in {v : ℝ | v ≤ h.vMax ∧ CanTransfer p.mass v q (e.binding + E)}, v * h.pdfSpeed v * p.d2SigmaIonization U q E v e)) := by
  unfold dRdEeERTerm
  dsimp only
  rw [canTransfer_set hq hm]
  by_cases h2 : vMinimalElectrons q (e.binding + E) p.mass < h.vMax
  · rw [if_pos h2]
    by_cases h3 : p.useEtaFunction = true ∧ h.useEta = true
    · rw [if_pos h3, show h.eta _ = _ from heta h3.1 h3.2 h2.le, Outcome.bind_ok, Outcome.ok.injEq, integral_Icc_eq_integral_Ioc,
        ← intervalIntegral.integral_of_le h2.le]
      have : ∀ v, v * h.pdfSpeed v * p.d2SigmaIonization U q E v e =
          1 / 1000 * (1 / 1000) * p.d2SigmaIonization U q E (1 / 1000) e * (h.pdfSpeed v / v) := fun v => by
        rw [mul_right_comm, d2SigmaIonization_speed]; ring
      simp only [this, intervalIntegral.integral_const_mul]
      ring
    · rw [if_neg h3, hI, Outcome.ok.injEq, integral_Icc_eq_integral_Ioc, ← intervalIntegral.integral_of_le h2.le]
      have : ∀ v, h.differentialFlux v p.mass * p.d2SigmaIonization U q E v e =
          h.density / p.mass * (v * h.pdfSpeed v * p.d2SigmaIonization U q E v e) := fun v => by
        unfold Distribution.differentialFlux; ring
      simp only [this, intervalIntegral.integral_const_mul]
      ring
  · rw [if_neg h2, integral_Icc_eq_integral_Ioc, Set.Ioc_eq_empty h2]
    simp

theorem range_sum (n : ℕ) (f : ℕ → ℝ) : ((List.range n).map f).sum = ∑ i ∈ Finset.range n, f i := rfl

/-- The computed rate is the textbook one, with either method. -/
theorem dRdEeER_eq (hI : I.Exact) (hm : 0 < p.mass) (hv : 0 < h.vMax) (hB : 0 < e.binding) {M E lo hi : ℝ}
    (hlo : IsLeast {q | CanTransfer p.mass h.vMax q e.binding} lo) (hhi : IsGreatest {q | CanTransfer p.mass h.vMax q e.binding} hi)
    (htab : lo ≤ e.qMax)
    (heta : p.useEtaFunction = true → h.useEta = true → ∀ q, lo ≤ q → q ≤ hi → vMinimalElectrons q (e.binding + E) p.mass ≤ h.vMax →
      EtaAt h (vMinimalElectrons q (e.binding + E) p.mass)) :
    dRdEeER U I E p h M e = .ok (ionizationRate U p h M e lo (min hi e.qMax) E) := by
  obtain ⟨ho, e1, e2, hlo0, hle⟩ := qMinER_eq hm hv hB hlo hhi
  unfold dRdEeER
  dsimp only
  rw [if_neg ho, e1, e2, if_neg (not_lt.2 htab), if_neg (not_le.2 hlo0)]
  have hmin : (if e.qMax < hi then e.qMax else hi) = min hi e.qMax := by
    split_ifs with h1
    · rw [min_eq_right h1.le]
    · rw [min_eq_left (not_lt.1 h1)]
  rw [hmin]
  have hmin1 : lo ≤ min hi e.qMax := le_min hle htab
  set top := min hi e.qMax with htop
  have htop0 : 0 < top := hlo0.trans_le hmin1
  rw [logSpace_get (by norm_num), logSpace_get (by norm_num), Outcome.bind_ok, Outcome.bind_ok, log_step hlo0 htop0]
  have hgrid : ∀ i : ℕ, i < 100 → lo ≤ lo * (top / lo) ^ ((i : ℝ) / (((100 : ℕ) : ℝ) - 1)) ∧
      lo * (top / lo) ^ ((i : ℝ) / (((100 : ℕ) : ℝ) - 1)) ≤ hi := by
    intro i hi'
    have h1 : 1 ≤ top / lo := by rw [le_div_iff₀ hlo0]; linarith
    have h2 : (i : ℝ) ≤ 99 := by exact_mod_cast Nat.lt_succ_iff.1 hi'
    have h3 : (0 : ℝ) ≤ (i : ℝ) / (((100 : ℕ) : ℝ) - 1) := by
      apply div_nonneg (by positivity); norm_num
    have h4 : (i : ℝ) / (((100 : ℕ) : ℝ) - 1) ≤ 1 := by
      rw [div_le_one (by norm_num)]; norm_num; linarith
    have h5 := Real.one_le_rpow h1 h3
    have h6 := Real.rpow_le_rpow_of_exponent_le h1 h4
    rw [Real.rpow_one] at h6
    constructor
    · nlinarith
    · calc _ ≤ lo * (top / lo) := by gcongr
        _ = top := by field_simp
        _ ≤ hi := min_le_left _ _
  unfold logSpace
  rw [sumOver_map, sumOver_ok (g := fun i : ℕ => h.density / p.mass *
    (2 * (lo * (top / lo) ^ ((i : ℝ) / 99)) ^ 2 * (Real.log (top / lo) / 99) *
      ∫ v in {v : ℝ | v ≤ h.vMax ∧ CanTransfer p.mass v (lo * (top / lo) ^ ((i : ℝ) / 99)) (e.binding + E)},
        v * h.pdfSpeed v * p.d2SigmaIonization U (lo * (top / lo) ^ ((i : ℝ) / 99)) E v e))]
  · rw [Outcome.bind_ok, Outcome.ok.injEq]
    unfold ionizationRate
    simp only [ionization_eq]
    rw [range_sum, ← Finset.mul_sum, ← mul_assoc, ← div_div]
    congr 1
    rw [one_div, div_eq_mul_inv _ M, mul_comm]
  · intro i hi'
    have hi' := List.mem_range.1 hi'
    have hg := hgrid i hi'
    have h99 : (((100 : ℕ) : ℝ) - 1) = 99 := by norm_num
    rw [h99] at hg
    simp only [Function.comp_apply, h99]
    exact dRdEeERTerm_eq hI hm (hlo0.trans_le hg.1) fun h1 h2 h3 => heta h1 h2 _ hg.1 hg.2 h3

theorem dRdEeER_scale (hI : I.Homogeneous) {k M E : ℝ} (hs : ScaledBy U "Electrons" k p p') :
    dRdEeER U I E p' h M e = (dRdEeER U I E p h M e).scale k := by
  have hd : ∀ q E v, p'.d2SigmaIonization U q E v e = k * p.d2SigmaIonization U q E v e := fun q E v => by
    unfold DMParticle.d2SigmaIonization
    rw [hs.interaction, hs.electrons, if_pos rfl]
    split
    · ring
    · simp
  have ht : ∀ dl q, dRdEeERTerm U I E dl p' h e q = (dRdEeERTerm U I E dl p h e q).scale k := fun dl q => by
    unfold dRdEeERTerm
    rw [hs.mass, hs.useEta]
    dsimp only
    split_ifs with h2 h3
    · cases h.eta _ <;> simp [Outcome.scale, hd]
      ring
    · simp only [Outcome.scale, Outcome.bind_ok, Outcome.ok.injEq]
      rw [mul_left_comm k, ← hI k]
      congr 2
      funext v
      rw [hd]; ring
    · simp [Outcome.scale]
  unfold dRdEeER
  rw [hs.mass]
  dsimp only
  by_cases h1 : energeticallyClosed p.mass h.vMax e.binding
  · rw [if_pos h1, if_pos h1]; simp [Outcome.scale]
  · rw [if_neg h1, if_neg h1]
    by_cases h2 : e.qMax < qMinER p.mass h.vMax e.binding
    · rw [if_pos h2, if_pos h2]; simp [Outcome.scale]
    · rw [if_neg h2, if_neg h2]
      by_cases h3 : qMinER p.mass h.vMax e.binding ≤ 0
      · rw [if_pos h3, if_pos h3]; rfl
      · rw [if_neg h3, if_neg h3]
        generalize logSpace _ _ 100 = grid
        cases vecGet grid 1 <;> try rfl
        cases vecGet grid 0 <;> try rfl
        simp only [Outcome.bind_ok]
        rw [sumOver_scale k fun q _ => ht _ q]
        generalize sumOver _ grid = o
        cases o <;> simp [Outcome.scale]
        ring

/-- Without enough kinetic energy there is no ionization. -/
theorem dRdEeER_zero (hm : 0 < p.mass) (hv : 0 < h.vMax) (hB : 0 < e.binding) {M E : ℝ}
    (hE : p.mass / 2 * h.vMax ^ 2 < e.binding + E) : dRdEeER U I E p h M e = .ok 0 := by
  unfold dRdEeER
  dsimp only
  by_cases h1 : energeticallyClosed p.mass h.vMax e.binding
  · rw [if_pos h1]
  rw [if_neg h1]
  by_cases h2 : e.qMax < qMinER p.mass h.vMax e.binding
  · rw [if_pos h2]
  rw [if_neg h2]
  have hmin : 0 < qMinER p.mass h.vMax e.binding := by
    unfold qMinER
    have : Real.sqrt (p.mass * p.mass * h.vMax * h.vMax - 2 * p.mass * e.binding) < p.mass * h.vMax := by
      rw [Real.sqrt_lt' (by positivity)]
      nlinarith [mul_pos hm hB]
    linarith
  have hmax : 0 < qMaxER p.mass h.vMax e.binding := by
    unfold qMaxER
    have := Real.sqrt_nonneg (p.mass * p.mass * h.vMax * h.vMax - 2 * p.mass * e.binding)
    have := mul_pos hm hv
    linarith
  rw [if_neg (not_le.2 hmin), logSpace_get (by norm_num), logSpace_get (by norm_num), Outcome.bind_ok, Outcome.bind_ok,
    sumOver_ok (g := fun _ => 0)]
  · simp
  · intro q hq
    have hq0 : 0 < q := by
      refine logSpace_pos hmin ?_ hq
      split_ifs
      · exact hmin.trans_le (not_lt.1 h2)
      · exact hmax
    unfold dRdEeERTerm
    dsimp only
    rw [if_neg]
    rw [not_lt, ← not_lt, vMin_lt_iff hq0 hm, not_lt]
    have : q * h.vMax - q ^ 2 / (2 * p.mass) = p.mass / 2 * h.vMax ^ 2 - (q - p.mass * h.vMax) ^ 2 / (2 * p.mass) := by
      field_simp; ring
    rw [this]
    have : 0 ≤ (q - p.mass * h.vMax) ^ 2 / (2 * p.mass) := by positivity
    linarith

/-! ### The Migdal effect -/

theorem vMinimalMigdal_eq {ER E m M B : ℝ} (hm : 0 < m) (hM : 0 < M) (hER : 0 < ER) :
    vMinimalMigdal ER E m M B = vMinimalElectrons (Real.sqrt (2 * M * ER)) (B + E) (m * M / (m + M)) := by
  have hmu : 0 < m * M / (m + M) := by positivity
  unfold vMinimalMigdal vMinimalElectrons reducedMass
  set mu := m * M / (m + M)
  have : Real.sqrt (M * ER / 2 / mu / mu) = Real.sqrt (2 * M * ER) / 2 / mu := by
    rw [show M * ER / 2 / mu / mu = (2 * M * ER) / (2 * mu) ^ 2 by field_simp, Real.sqrt_div' _ (by positivity),
      Real.sqrt_sq (by positivity), div_div]
  rw [this, add_comm E B]
  ring

theorem migdal_eq (iso : Isotope) (ER E v : ℝ) : migdalCrossSection U p iso e ER E v = p.d2SigmaMigdal U ER E v iso e := by
  unfold migdalCrossSection DMParticle.d2SigmaMigdal
  rw [div_div]

theorem d2SigmaMigdal_speed (iso : Isotope) (ER E v : ℝ) :
    v * p.d2SigmaMigdal U ER E v iso e = 1 / v * ((1 / 1000) * (1 / 1000) * p.d2SigmaMigdal U ER E (1 / 1000) iso e) := by
  have h1 := dSigmadER_speed (U := U) p ER iso v
  unfold DMParticle.d2SigmaMigdal
  dsimp only
  generalize e.ionizationFormFactor U _ E = F
  linear_combination (1 / 4 / E * F) * h1

theorem migdalIntegrand_eq (hI : I.Exact) {iso : Isotope} {ER E : ℝ} (hm : 0 < p.mass) (hM : 0 < iso.mass) (hER : 0 < ER)
    (heta : p.useEtaFunction = true → h.useEta = true → vMinimalMigdal ER E p.mass iso.mass e.binding ≤ h.vMax →
      EtaAt h (vMinimalMigdal ER E p.mass iso.mass e.binding)) :
    migdalIntegrand U I E p h iso e ER = h.density / p.mass *
      ∫ v in {v : ℝ | v ≤ h.vMax ∧
          CanTransfer (p.mass * iso.mass / (p.mass + iso.mass)) v (Real.sqrt (2 * iso.mass * ER)) (e.binding + E)},
        v * h.pdfSpeed v * p.d2SigmaMigdal U ER E v iso e := by
  have hmu : 0 < p.mass * iso.mass / (p.mass + iso.mass) := by positivity
  rw [canTransfer_set (Real.sqrt_pos.2 (by positivity)) hmu, ← vMinimalMigdal_eq hm hM hER]
  unfold migdalIntegrand
  dsimp only
  rw [if_pos hER]
  by_cases h1 : h.vMax ≤ vMinimalMigdal ER E p.mass iso.mass e.binding
  · rw [if_pos h1, integral_Icc_eq_integral_Ioc, Set.Ioc_eq_empty (not_lt.2 h1)]
    simp
  · have h1' := (not_le.1 h1).le
    rw [if_neg h1, integral_Icc_eq_integral_Ioc, ← intervalIntegral.integral_of_le h1']
    by_cases h2 : p.useEtaFunction = true ∧ h.useEta = true
    · rw [if_pos h2, show h.eta _ = _ from heta h2.1 h2.2 h1']
      have : ∀ v, v * h.pdfSpeed v * p.d2SigmaMigdal U ER E v iso e =
          1 / 1000 * (1 / 1000) * p.d2SigmaMigdal U ER E (1 / 1000) iso e * (h.pdfSpeed v / v) := fun v => by
        rw [mul_right_comm, d2SigmaMigdal_speed]; ring
      simp only [this, intervalIntegral.integral_const_mul, Outcome.valueOr0]
      ring
    · rw [if_neg h2, hI, ← intervalIntegral.integral_const_mul]
      refine intervalIntegral.integral_congr fun v _ => ?_
      unfold Distribution.differentialFlux
      ring

/-- The computed rate is the textbook one, with either method. -/
theorem dRdEeMigdalIsotope_eq (hI : I.Exact) {iso : Isotope} {E : ℝ} (hm : 0 < p.mass) (hM : 0 < iso.mass) (hv : 0 < h.vMax)
    (hB : 0 < e.binding) (hE : 0 ≤ E)
    (heta : p.useEtaFunction = true → h.useEta = true → ∀ ER, 0 < ER → vMinimalMigdal ER E p.mass iso.mass e.binding ≤ h.vMax →
      EtaAt h (vMinimalMigdal ER E p.mass iso.mass e.binding)) :
    dRdEeMigdalIsotope U I E p h iso e = migdalRate U p h iso e E := by
  unfold dRdEeMigdalIsotope migdalRate
  simp only [migdal_eq]
  set G : ℝ → ℝ := fun ER => ∫ v in {v : ℝ | v ≤ h.vMax ∧
          CanTransfer (p.mass * iso.mass / (p.mass + iso.mass)) v (Real.sqrt (2 * iso.mass * ER)) (e.binding + E)},
        v * h.pdfSpeed v * p.d2SigmaMigdal U ER E v iso e with hG
  have hmu : 0 < p.mass * iso.mass / (p.mass + iso.mass) := by positivity
  have hval : ∀ ER, 0 < ER → migdalIntegrand U I E p h iso e ER = h.density / p.mass * G ER := fun ER hER =>
    migdalIntegrand_eq hI hm hM hER fun h1 h2 h3 => heta h1 h2 ER hER h3
  have hlo : 0 < erMinMigdal h.vMax iso.mass e.binding := by unfold erMinMigdal; positivity
  have hhi : 0 < erMaxMigdal h.vMax p.mass iso.mass := by
    have := reducedMass_pos hm hM
    unfold erMaxMigdal; positivity
  have hzero : ∀ ER, 0 < ER → (ER < erMinMigdal h.vMax iso.mass e.binding ∨ erMaxMigdal h.vMax p.mass iso.mass < ER) → G ER = 0 := by
    intro ER hER hout
    have h1 := C14_range_complete hm hM hER hE hB.le hv hout
    simp only [hG]
    rw [canTransfer_set (Real.sqrt_pos.2 (by positivity)) hmu, ← vMinimalMigdal_eq hm hM hER, integral_Icc_eq_integral_Ioc,
      Set.Ioc_eq_empty (not_lt.2 h1)]
    simp
  have hsub : Set.uIcc (erMinMigdal h.vMax iso.mass e.binding) (erMaxMigdal h.vMax p.mass iso.mass) ⊆ Set.Ioi 0 := fun x hx =>
    (lt_min hlo hhi).trans_le hx.1
  rw [hI, intervalIntegral.integral_congr fun x hx => hval x (hsub hx), intervalIntegral.integral_const_mul]
  have key : ∫ x in (erMinMigdal h.vMax iso.mass e.binding)..(erMaxMigdal h.vMax p.mass iso.mass), G x = ∫ x in Set.Ioi (0 : ℝ), G x := by
    rcases le_or_gt (erMinMigdal h.vMax iso.mass e.binding) (erMaxMigdal h.vMax p.mass iso.mass) with hle | hgt
    · rw [intervalIntegral.integral_of_le hle, ← integral_Icc_eq_integral_Ioc]
      rw [Set.uIcc_of_le hle] at hsub
      refine (setIntegral_eq_of_subset_of_forall_sdiff_eq_zero measurableSet_Ioi hsub fun x hx => ?_).symm
      refine hzero x hx.1 ?_
      by_contra hc
      push Not at hc
      exact hx.2 hc
    · have h0 : ∀ x ∈ Set.Ioi (0 : ℝ), G x = 0 := fun x hx => hzero x hx (by
        by_contra hc
        push Not at hc
        linarith)
      rw [setIntegral_congr_fun measurableSet_Ioi h0, intervalIntegral.integral_congr (g := fun _ => 0) fun x hx => h0 x (hsub hx)]
      simp
  rw [key, ← mul_assoc]
  congr 1
  field_simp

theorem dRdEeMigdal_scale (hI : I.Homogeneous) {k E : ℝ} {n : Nucleus} (hs : ScaledBy U "Nuclei" k p p') :
    dRdEeMigdal U I E p' h n e = k * dRdEeMigdal U I E p h n e := by
  have hd : ∀ ER v iso, p'.d2SigmaMigdal U ER E v iso e = k * p.d2SigmaMigdal U ER E v iso e := fun ER v iso => by
    unfold DMParticle.d2SigmaMigdal DMParticle.dSigmadERNucleus
    rw [hs.nuclei, if_pos rfl]
    ring
  have hi : ∀ iso, migdalIntegrand U I E p' h iso e = fun ER => k * migdalIntegrand U I E p h iso e ER := fun iso => by
    funext ER
    unfold migdalIntegrand
    rw [hs.mass, hs.useEta]
    dsimp only
    generalize (if 0 < ER then _ else _ : ℝ) = vMin
    split_ifs with h2 h3
    · simp
    · rw [hd]; ring
    · rw [← hI k]
      congr 1
      funext v
      rw [hd]; ring
  unfold dRdEeMigdal
  have hI' : ∀ iso, dRdEeMigdalIsotope U I E p' h iso e = k * dRdEeMigdalIsotope U I E p h iso e := fun iso => by
    unfold dRdEeMigdalIsotope
    rw [hi, hI, hs.mass]; ring
  rw [← List.foldl_map (f := fun iso : Isotope => iso.abundance * dRdEeMigdalIsotope U I E p' h iso e),
    ← List.foldl_map (f := fun iso : Isotope => iso.abundance * dRdEeMigdalIsotope U I E p h iso e), foldl_add_eq_sum,
    foldl_add_eq_sum, ← sum_map_mul, List.map_map]
  congr 2
  funext iso
  simp only [Function.comp_apply, hI']
  ring

/-- Without enough kinetic energy there is no Migdal ionization. -/
theorem dRdEeMigdal_zero (hI : I.Exact) {n : Nucleus} (hm : 0 < p.mass) (hM : ∀ iso ∈ n.isotopes, 0 < iso.mass) {E : ℝ}
    (hE : p.mass / 2 * h.vMax ^ 2 < e.binding + E) : dRdEeMigdal U I E p h n e = 0 := by
  unfold dRdEeMigdal
  rw [← List.foldl_map (f := fun iso : Isotope => iso.abundance * dRdEeMigdalIsotope U I E p h iso e), foldl_add_eq_sum]
  refine List.sum_eq_zero fun x hx => ?_
  obtain ⟨iso, hiso, rfl⟩ := List.mem_map.1 hx
  have hM := hM iso hiso
  have hz : ∀ ER, 0 < ER → migdalIntegrand U I E p h iso e ER = 0 := fun ER hER => by
    have hmu : 0 < p.mass * iso.mass / (p.mass + iso.mass) := by positivity
    unfold migdalIntegrand
    dsimp only
    rw [if_pos hER, if_pos]
    rw [vMinimalMigdal_eq hm hM hER, ← not_lt, vMin_lt_iff (Real.sqrt_pos.2 (by positivity)) hmu, not_lt]
    set q := Real.sqrt (2 * iso.mass * ER)
    set mu := p.mass * iso.mass / (p.mass + iso.mass) with hmu'
    have h1 : q * h.vMax - q ^ 2 / (2 * mu) = mu / 2 * h.vMax ^ 2 - (q - mu * h.vMax) ^ 2 / (2 * mu) := by
      field_simp; ring
    have h2 : 0 ≤ (q - mu * h.vMax) ^ 2 / (2 * mu) := by positivity
    have h3 : mu ≤ p.mass := by
      rw [hmu', div_le_iff₀ (by positivity)]; nlinarith
    have h4 : mu / 2 * h.vMax ^ 2 ≤ p.mass / 2 * h.vMax ^ 2 := by gcongr
    linarith
  have : dRdEeMigdalIsotope U I E p h iso e = 0 := by
    unfold dRdEeMigdalIsotope
    have hlo : 0 ≤ erMinMigdal h.vMax iso.mass e.binding := by
      unfold erMinMigdal
      rw [← sq]; positivity
    have hhi : 0 ≤ erMaxMigdal h.vMax p.mass iso.mass := by
      unfold erMaxMigdal
      rw [← sq]; positivity
    rw [hI, intervalIntegral.integral_zero_ae]
    · simp
    · refine Filter.Eventually.of_forall fun x hx => hz x ?_
      exact (le_min hlo hhi).trans_lt hx.1
  rw [this, mul_zero]

/-! ### Detectors -/

/-- A shell rate that is proportional to the cross section on the target `t`, and depends on the detector only through its
configuration. -/
structure LinearShell (U : Units) (S : ShellRate) (t : String) : Prop where
  scale : ∀ d E k p p' n e, 0 ≤ k → ScaledBy U t k p p' → S d E p' n e = (S d E p n e).scale k
  config : ∀ (d : Detector) E p n e u c s ss,
    S { d with usingFiducial := u, fiducialCoupling := c, fiducialSignals := s, fiducialSpectrum := ss } E p n e = S d E p n e

theorem shellRateER_linear (hI : I.Homogeneous) : LinearShell U (shellRateER U I h) "Electrons" := by
  constructor
  · intro d E k p p' n e _ hs
    unfold shellRateER
    rw [dRdEeER_scale hI hs]
    cases dRdEeER U I E p h n.averageMass e <;> simp [Outcome.scale]
    ring
  · intros; rfl

theorem shellRateMigdal_linear (hI : I.Homogeneous) : LinearShell U (shellRateMigdal U I h) "Nuclei" := by
  constructor
  · intro d E k p p' n e _ hs
    unfold shellRateMigdal
    rw [dRdEeMigdal_scale hI hs]
    simp [Outcome.scale]
    ring
  · intros; rfl

namespace IonizationDetector

variable {S : ShellRate} {T : Tools} {x : IonizationDetector} {d : Detector} {t : String} {k : ℝ}

theorem dRdEAtom_scale (hS : LinearShell U S t) (hk : 0 ≤ k) (hs : ScaledBy U t k p p') (E : ℝ) (a : Atom) :
    dRdEAtom S d E p' a = (dRdEAtom S d E p a).scale k :=
  sumOver_scale k fun e _ => hS.scale d E k p p' a.nucleus e hk hs

theorem dRdE_scale (hS : LinearShell U S t) (hk : 0 ≤ k) (hs : ScaledBy U t k p p') (E : ℝ) :
    x.dRdE S d E p' = (x.dRdE S d E p).scale k := by
  refine sumOver_scale k fun i _ => ?_
  cases vecGet x.atoms i <;> simp [Outcome.scale]
  cases vecGet x.fractions i <;> simp
  rw [dRdEAtom_scale hS hk hs]
  rename_i a f
  cases dRdEAtom S d E p a <;> simp [Outcome.scale]
  ring

theorem rNeShell_scale (hS : LinearShell U S t) (hk : 0 ≤ k) (hs : ScaledBy U t k p p') (ne : ℕ) (W : ℝ) (n : Nucleus) (e : AtomicElectron) :
    rNeShell U S d ne p' W n e = (rNeShell U S d ne p W n e).scale k := by
  refine sumOver_scale k fun y _ => ?_
  dsimp only
  cases pdfNe ne (y * y / 2 / U.mElectron) W e.secondaries <;> simp [Outcome.scale]
  rw [hS.scale d _ k p p' n e hk hs]
  cases S d (y * y / 2 / U.mElectron) p n e <;> simp [Outcome.scale]
  ring

theorem rNeAtom_scale (hS : LinearShell U S t) (hk : 0 ≤ k) (hs : ScaledBy U t k p p') (ne : ℕ) (a : Atom) :
    rNeAtom U S d ne p' a = (rNeAtom U S d ne p a).scale k :=
  sumOver_scale k fun e _ => rNeShell_scale hS hk hs ne a.W a.nucleus e

theorem rNe_scale (hS : LinearShell U S t) (hk : 0 ≤ k) (hs : ScaledBy U t k p p') (ne : ℕ) :
    x.rNe U S d ne p' = (x.rNe U S d ne p).scale k := by
  refine sumOver_scale k fun i _ => ?_
  cases vecGet x.atoms i <;> simp [Outcome.scale]
  cases vecGet x.fractions i <;> simp
  rw [rNeAtom_scale hS hk hs]
  rename_i a f
  cases rNeAtom U S d ne p a <;> simp [Outcome.scale]
  ring

theorem spectrum_scale (hS : LinearShell U S t) (hk : 0 ≤ k) (hs : ScaledBy U t k p p') (l : List ℕ) :
    collect (fun ne => x.rNe U S d ne p') l = collect (fun ne => x.rNe U S d ne p) l >>= fun xs => .ok (xs.map fun y => k * y) :=
  collect_scale k fun ne _ => rNe_scale hS hk hs ne

theorem rS2Aux_scale (nPE : ℕ) (mu sigma : ℝ) (l : List ℝ) :
    rS2Aux nPE mu sigma (l.map fun y => k * y) = (rS2Aux nPE mu sigma l).scale k := by
  unfold rS2Aux
  rw [collect_scale (f := fun ne : ℕ => vecGet l (ne - 1)) k]
  · generalize collect _ _ = o
    cases o <;> simp [Outcome.scale]
    rename_i rs
    split_ifs
    · rfl
    · simp only [Outcome.bind_ok, Outcome.ok.injEq, foldl_add_eq_sum]
      rw [← sum_map_mul, List.zipWith_map_right, List.map_zipWith]
      congr 2
      funext a b
      ring
  · intro ne _
    unfold vecGet
    rw [List.getElem?_map]
    cases l[ne - 1]? <;> simp [Outcome.scale]

theorem rS2_scale (hS : LinearShell U S t) (hk : 0 ≤ k) (hs : ScaledBy U t k p p') (nPE : ℕ) (l : List ℝ) :
    x.rS2 U S d nPE p' (l.map fun y => k * y) = (x.rS2 U S d nPE p l).scale k := by
  unfold rS2
  rw [spectrum_scale hS hk hs, List.isEmpty_map]
  cases l.isEmpty
  · simp only [Bool.false_eq_true, if_false, Outcome.bind_ok]
    exact rS2Aux_scale ..
  · simp only [if_true]
    generalize collect _ _ = o
    cases o <;> try rfl
    exact rS2Aux_scale ..

theorem rS2Bin_scale (hS : LinearShell U S t) (hk : 0 ≤ k) (hs : ScaledBy U t k p p') (lo hi : ℕ) (l : List ℝ) :
    x.rS2Bin U S d lo hi p' (l.map fun y => k * y) = (x.rS2Bin U S d lo hi p l).scale k := by
  have key : ∀ l : List ℝ, sumOver (fun nPE => do
      let eff ← x.peEfficiency nPE
      let r ← x.rS2 U S d nPE p' (l.map fun y => k * y)
      .ok (eff * r)) (List.range' lo (hi + 1 - lo)) = (sumOver (fun nPE => do
      let eff ← x.peEfficiency nPE
      let r ← x.rS2 U S d nPE p l
      .ok (eff * r)) (List.range' lo (hi + 1 - lo))).scale k := fun l => by
    refine sumOver_scale k fun nPE _ => ?_
    cases x.peEfficiency nPE <;> simp [Outcome.scale]
    rw [rS2_scale hS hk hs]
    cases x.rS2 U S d nPE p l <;> simp [Outcome.scale]
    ring
  unfold rS2Bin
  rw [spectrum_scale hS hk hs, List.isEmpty_map]
  cases l.isEmpty
  · simp only [Bool.false_eq_true, if_false, Outcome.bind_ok]
    exact key l
  · simp only [if_true]
    generalize collect _ _ = o
    cases o <;> try rfl
    exact key _

theorem signalsBinned_scale (hI : T.integrate.Homogeneous) (hS : LinearShell U S t) (hk : 0 ≤ k) (hs : ScaledBy U t k p p') :
    x.signalsBinned U S T d p' h = x.signalsBinned U S T d p h >>= fun ss => .ok (ss.map fun s => k * s) := by
  unfold signalsBinned
  by_cases h1 : d.analysis ≠ .binnedPoisson
  · rw [if_pos h1, if_pos h1]; rfl
  rw [if_neg h1, if_neg h1]
  by_cases h2 : d.usingEnergyBins = true
  · rw [if_pos h2, if_pos h2]
    exact signalsEnergyBins_scale hI fun E => by
      change (x.dRdE S d E p').valueOr0 = k * (x.dRdE S d E p).valueOr0
      rw [dRdE_scale hS hk hs, Outcome.scale_valueOr0]
  rw [if_neg h2, if_neg h2]
  by_cases h3 : x.usingElectronBins = true
  · rw [if_pos h3, if_pos h3]
    unfold signalsElectronBins
    rw [if_neg (by simp [h3]), if_neg (by simp [h3])]
    refine collect_scale k fun bin _ => ?_
    rw [rNe_scale hS hk hs]
    cases x.rNe U S d ((x.neThreshold + bin) % 2 ^ 32) p <;> simp [Outcome.scale]
    cases vecGet d.binEfficiencies bin <;> simp
    ring
  rw [if_neg h3, if_neg h3]
  by_cases h4 : x.usingS2Bins = true
  · rw [if_pos h4, if_pos h4]
    unfold signalsPEBins
    rw [if_neg (by simp [h4]), if_neg (by simp [h4]), spectrum_scale hS hk hs]
    generalize collect (fun ne => x.rNe U S d ne p) _ = o
    cases o <;> try rfl
    rename_i sp
    simp only [Outcome.bind_ok]
    refine collect_scale k fun bin _ => ?_
    cases vecGet x.s2Bins bin <;> simp [Outcome.scale]
    cases vecGet x.s2Bins (bin + 1) <;> simp
    rw [rS2Bin_scale hS hk hs]
    rename_i lo hi
    cases x.rS2Bin U S d lo (usub32 hi 1) p sp <;> simp [Outcome.scale]
    cases vecGet d.binEfficiencies bin <;> simp
    ring
  · rw [if_neg h4, if_neg h4]; rfl

/-- Ionization detectors meet the contract of the limit theorems. -/
theorem linearClass (hI : T.integrate.Homogeneous) (hS : LinearShell U S t) : LinearClass U (x.toClass U S T h) t := by
  constructor
  · intro d E k p p' _ hk hs
    change (x.dRdE S d E p').valueOr0 = k * (x.dRdE S d E p).valueOr0
    rw [dRdE_scale hS hk hs, Outcome.scale_valueOr0]
  · intro d k p p' _ hk hs
    change x.signalsTotal U S T d p' h = x.signalsTotal U S T d p h >>= fun s => .ok (k * s)
    unfold signalsTotal
    by_cases h1 : d.analysis = .binnedPoisson
    · rw [if_pos h1, if_pos h1, signalsBinned_scale hI hS hk hs]
      cases x.signalsBinned U S T d p h <;> simp [foldl_add_eq_sum, sum_map_mul]
    rw [if_neg h1, if_neg h1]
    by_cases h2 : x.usingElectronThreshold = true
    · rw [if_pos h2, if_pos h2]
      refine sumOver_scale k fun ne _ => ?_
      rw [rNe_scale hS hk hs]
      cases x.rNe U S d ne p <;> simp [Outcome.scale]
      ring
    rw [if_neg h2, if_neg h2]
    by_cases h3 : d.usingEnergyThreshold = true
    · rw [if_pos h3, if_pos h3]
      refine sumOver_scale k fun i _ => ?_
      cases vecGet x.atoms i <;> simp [Outcome.scale]
      refine sumOver_scale k fun e he => ?_
      cases vecGet x.fractions i <;> simp [Outcome.scale]
      unfold thresholdSignal
      dsimp only
      split_ifs
      · rename_i a f _
        have : (fun E => d.exposure * (S d E p' a.nucleus e).valueOr0) = fun E => k * (d.exposure * (S d E p a.nucleus e).valueOr0) := by
          funext E
          rw [hS.scale d E k p p' a.nucleus e hk hs, Outcome.scale_valueOr0]; ring
        rw [this, hI k]; ring
      · simp
    rw [if_neg h3, if_neg h3]
    by_cases h4 : x.usingS2Threshold = true
    · rw [if_pos h4, if_pos h4]
      have := rS2Bin_scale (x := x) (d := d) hS hk hs x.peThreshold x.peMax []
      rw [List.map_nil] at this
      rw [this]
      cases x.rS2Bin U S d x.peThreshold x.peMax p [] <;> simp [Outcome.scale]
      ring
    · rw [if_neg h4, if_neg h4]; simp
  · intro d k p p' _ hk hs
    exact signalsBinned_scale hI hS hk hs
  · intro d p u c s ss
    have hc := fun E p n e => hS.config d E p n e u c s ss
    refine ⟨?_, ?_, fun E => ?_⟩
    · simp only [toClass, signalsTotal, signalsBinned, signalsElectronBins, signalsPEBins, rS2Bin, rS2, rNe, rNeAtom, rNeShell,
        thresholdSignal, hc, Detector.signalsEnergyBins, rateClass, dRdE, dRdEAtom]
    · simp only [toClass, signalsBinned, signalsElectronBins, signalsPEBins, rS2Bin, rS2, rNe, rNeAtom, rNeShell,
        hc, Detector.signalsEnergyBins, rateClass, dRdE, dRdEAtom]
    · simp only [toClass, dRdE, dRdEAtom, hc]

end IonizationDetector
end Obscura
