import Verif.Model.HaloPP
import Verif.Spec.Halo
import Verif.Lemmas.HaloPP
import Verif.Props.Halo
import Verif.Props.HaloAngular

/-!
# Properties C19, C20, C59: the SHM++
-/

namespace Obscura

/-- The parameters of an SHM++ as a user keeps track of them. -/
structure HaloPPParams extends HaloParams where
  e : ℝ
  b : ℝ

/-- Each setter replaces its own parameter and nothing else. -/
noncomputable def HaloPPParams.after (U : Units) (p : HaloPPParams) : SHMpp.Op → HaloPPParams
  | .base op => { p.toHaloParams.after U op with e := p.e, b := p.b }
  | .setEta e => { p with e := e }
  | .setBeta b => { p with b := b }

/-- Freshly constructed with the given parameters. -/
noncomputable def HaloPPParams.fresh (N : Numerics) (p : HaloPPParams) : SHMpp :=
  SHMpp.makeVel N p.rho p.v0 p.vel p.vesc p.e p.b

/-- The parameters after a history. -/
noncomputable def HaloPPParams.afterAll (U : Units) (p : HaloPPParams) (ops : List SHMpp.Op) : HaloPPParams :=
  ops.foldl (HaloPPParams.after U) p

theorem shmpp_step (U : Units) (N : Numerics) (p : HaloPPParams) (t : ℝ → ℝ) (op : SHMpp.Op) :
    SHMpp.step U { p.fresh N with table := t } op = { (p.after U op).fresh N with table := t } := by
  cases op with
  | base op =>
    cases op <;>
      simp only [SHMpp.step, SHMpp.setSpeedDispersion, SHMpp.setEscapeVelocity, SHMpp.setObserverDate,
        SHMpp.setObserverVelocity, SHMpp.normalize, SHMpp.computeSigmas, HaloPPParams.fresh, SHMpp.makeVel, SHMpp.ofSHM,
        SHMpp.interpolateEta, HaloPPParams.after, HaloParams.after, SHM.makeVel, SHM.normalize]
  | setEta e =>
    simp only [SHMpp.step, SHMpp.setEta, HaloPPParams.fresh, SHMpp.makeVel, SHMpp.ofSHM, SHMpp.computeSigmas,
      SHMpp.normalize, SHMpp.interpolateEta, HaloPPParams.after]
  | setBeta b =>
    simp only [SHMpp.step, SHMpp.setBeta, SHMpp.normalize, SHMpp.computeSigmas, HaloPPParams.fresh, SHMpp.makeVel,
      SHMpp.ofSHM, SHMpp.interpolateEta, HaloPPParams.after, SHM.makeVel, SHM.normalize]

/-- After any history everything but the eta table is as freshly constructed; the table is the one of the constructor. -/
theorem shmpp_run (U : Units) (N : Numerics) (p : HaloPPParams) (t : ℝ → ℝ) (ops : List SHMpp.Op) :
    SHMpp.run U { p.fresh N with table := t } ops = { (p.afterAll U ops).fresh N with table := t } := by
  induction ops generalizing p with
  | nil => rfl
  | cons op ops ih =>
    simp only [SHMpp.run, HaloPPParams.afterAll, List.foldl_cons] at ih ⊢
    rw [shmpp_step]
    exact ih (p.after U op)

/-- C19 for the distribution functions: after any history of setters the velocity PDF, the speed PDF, the speed CDF, the
density and the speed domain are those of an SHM++ freshly constructed with the current parameters.
Missing: `Eta_Function` (see `C19_eta_stale` and `C19_fails`). -/
theorem C19_distributions_partial (U : Units) (N : Numerics) (p : HaloPPParams) (ops : List SHMpp.Op) :
    let s := SHMpp.run U (p.fresh N) ops
    let f := (p.afterAll U ops).fresh N
    s.pdfVelocity = f.pdfVelocity ∧ s.pdfSpeed N = f.pdfSpeed N ∧ s.cdfSpeed N = f.cdfSpeed N ∧
    s.density = f.density ∧ s.vMin = f.vMin ∧ s.vMax = f.vMax := by
  have h := shmpp_run U N p (p.fresh N).table ops
  simp only at h ⊢
  rw [show ({ p.fresh N with table := (p.fresh N).table } : SHMpp) = p.fresh N from rfl] at h
  rw [h]
  exact ⟨rfl, rfl, rfl, rfl, rfl, rfl⟩

/-- C19, what happens to eta instead: after any history of setters `Eta_Function` combines the SHM part for the current
parameters with the table of the sausage part computed for the parameters given to the *constructor*. -/
theorem C19_eta_stale (U : Units) (N : Numerics) (p : HaloPPParams) (ops : List SHMpp.Op) (v : ℝ)
    (h1 : ((p.afterAll U ops).fresh N).vMin ≤ v) (h2 : v ≤ ((p.afterAll U ops).fresh N).vMax) :
    (SHMpp.run U (p.fresh N) ops).eta v =
      .ok ((1 - (p.afterAll U ops).e) * ((p.afterAll U ops).fresh N).toSHM.eta v +
        (p.afterAll U ops).e * (p.fresh N).table v) := by
  have h := shmpp_run U N p (p.fresh N).table ops
  rw [show ({ p.fresh N with table := (p.fresh N).table } : SHMpp) = p.fresh N from rfl] at h
  rw [h]
  unfold SHMpp.eta
  rw [if_neg (not_lt.2 h1), if_neg (not_lt.2 h2)]
  rfl

/-- C19 for histories that only call `Set_Eta` (and change the density): then eta is up to date as well. -/
theorem C19_set_eta_partial (U : Units) (N : Numerics) (p : HaloPPParams) (es : List ℝ) :
    SHMpp.run U (p.fresh N) (es.map SHMpp.Op.setEta) = (p.afterAll U (es.map SHMpp.Op.setEta)).fresh N := by
  induction es generalizing p with
  | nil => rfl
  | cons e es ih =>
    simp only [SHMpp.run, HaloPPParams.afterAll, List.foldl_cons, List.map_cons] at ih ⊢
    exact ih (p.after U (.setEta e))

example : HaloPPParams.afterAll Units.sample ⟨⟨1, 2, ![0, 3, 0], 7⟩, 0.2, 0.9⟩ [.setBeta 0.5, .base (.setEscapeVelocity 8), .setEta 1] =
    ⟨⟨1, 2, ![0, 3, 0], 8⟩, 1, 0.5⟩ := rfl

/-! ## C20 — combination of two components -/

/-- C20: velocity PDF, speed PDF and speed CDF of an SHM++ with fraction `e` are the combination `(1-e)` of the SHM++ with
fraction 0 and `e` of the one with fraction 1, with equal remaining parameters. -/
theorem C20_combination (N : Numerics) (p : HaloPPParams) :
    let s := p.fresh N
    let s0 := ({ p with e := 0 } : HaloPPParams).fresh N
    let s1 := ({ p with e := 1 } : HaloPPParams).fresh N
    (∀ vel, s.pdfVelocity vel = (1 - p.e) * s0.pdfVelocity vel + p.e * s1.pdfVelocity vel) ∧
    (∀ v, s.pdfSpeed N v = (1 - p.e) * s0.pdfSpeed N v + p.e * s1.pdfSpeed N v) ∧
    (∀ v, s.cdfSpeed N v = (1 - p.e) * s0.cdfSpeed N v + p.e * s1.cdfSpeed N v) ∧
    (∀ v, 0 ≤ v → ∃ a a0 a1, s.eta v = .ok a ∧ s0.eta v = .ok a0 ∧ s1.eta v = .ok a1 ∧ a = (1 - p.e) * a0 + p.e * a1) := by
  intro s s0 s1
  have hS : s.pdfVelocityS = s0.pdfVelocityS ∧ s.pdfVelocityS = s1.pdfVelocityS := ⟨rfl, rfl⟩
  have hP : s.pdfSpeedS N = s0.pdfSpeedS N ∧ s.pdfSpeedS N = s1.pdfSpeedS N := ⟨rfl, rfl⟩
  have hC : s.cdfSpeedS N = s0.cdfSpeedS N ∧ s.cdfSpeedS N = s1.cdfSpeedS N := ⟨rfl, rfl⟩
  have hT : s.table = s0.table ∧ s.table = s1.table := ⟨rfl, rfl⟩
  have hB : s.toSHM = s0.toSHM ∧ s.toSHM = s1.toSHM := ⟨rfl, rfl⟩
  have he : s.etaS = p.e := rfl
  have he0 : s0.etaS = 0 := rfl
  have he1 : s1.etaS = 1 := rfl
  refine ⟨fun vel => ?_, fun v => ?_, fun v => ?_, fun v hv => ?_⟩
  · simp only [SHMpp.pdfVelocity]
    rw [← hS.1, ← hS.2, ← hB.1, ← hB.2, he, he0, he1]
    ring
  · simp only [SHMpp.pdfSpeed]
    rw [← hP.1, ← hP.2, ← hB.1, ← hB.2, he, he0, he1]
    ring
  · simp only [SHMpp.cdfSpeed]
    rw [← hC.1, ← hC.2, ← hB.1, ← hB.2, he, he0, he1]
    ring
  · have hmin : s.vMin = 0 := rfl
    have hv' : ¬ v < s.vMin := by rw [hmin]; exact not_lt.2 hv
    by_cases hm : s.vMax < v
    · refine ⟨0, 0, 0, ?_, ?_, ?_, by ring⟩
      · unfold SHMpp.eta; rw [if_neg hv', if_pos hm]
      · unfold SHMpp.eta; rw [← hB.1, if_neg hv', if_pos hm]
      · unfold SHMpp.eta; rw [← hB.2, if_neg hv', if_pos hm]
    · refine ⟨(1 - p.e) * s.toSHM.etaSHM v + p.e * s.table v, s.toSHM.etaSHM v, s.table v, ?_, ?_, ?_, rfl⟩
      · unfold SHMpp.eta; rw [if_neg hv', if_neg hm, he]
      · unfold SHMpp.eta; rw [← hB.1, if_neg hv', if_neg hm, he0, ← hT.1]; congr 1; ring
      · unfold SHMpp.eta; rw [← hB.2, if_neg hv', if_neg hm, he1, ← hT.2]; congr 1; ring

/-- C20: with fraction 0 the SHM++ is the standard halo model with the same parameters (for a positive radius of the
velocity ball and, for eta, within the speed domain). -/
theorem C20_no_sausage (N : Numerics) (p : HaloPPParams) (h0 : p.e = 0) :
    let s := p.fresh N
    let h := SHM.makeVel p.rho p.v0 p.vel p.vesc
    s.pdfVelocity = h.pdfVelocity ∧ s.pdfSpeed N = h.pdfSpeed ∧ s.cdfSpeed N = h.cdfSpeed ∧
    (0 < p.v0 → ∀ v, 0 ≤ v → s.eta v = .ok (h.eta v)) := by
  refine ⟨?_, ?_, ?_, ?_⟩
  · funext vel
    simp only [SHMpp.pdfVelocity, HaloPPParams.fresh, SHMpp.makeVel, SHMpp.ofSHM, SHMpp.interpolateEta, SHMpp.normalize,
      SHMpp.computeSigmas, h0]
    rw [sub_zero, one_mul, zero_mul, add_zero]
    rfl
  · funext v
    simp only [SHMpp.pdfSpeed, HaloPPParams.fresh, SHMpp.makeVel, SHMpp.ofSHM, SHMpp.interpolateEta, SHMpp.normalize,
      SHMpp.computeSigmas, h0]
    rw [sub_zero, one_mul, zero_mul, add_zero]
    rfl
  · funext v
    simp only [SHMpp.cdfSpeed, HaloPPParams.fresh, SHMpp.makeVel, SHMpp.ofSHM, SHMpp.interpolateEta, SHMpp.normalize,
      SHMpp.computeSigmas, h0]
    rw [sub_zero, one_mul, zero_mul, add_zero]
    rfl
  · intro hv0 v hv
    unfold SHMpp.eta
    rw [if_neg (show ¬ v < (p.fresh N).vMin from not_lt.2 hv)]
    by_cases hm : p.vesc + vnorm p.vel < v
    · rw [if_pos (show (p.fresh N).vMax < v from hm)]
      congr 1
      symm
      apply eta_zero
      have : (vnorm p.vel + p.vesc) / p.v0 < v / p.v0 := div_lt_div_of_pos_right (by linarith) hv0
      rw [add_div] at this
      have h18 : (0 : ℝ) < 1e-8 := by norm_num
      show vnorm p.vel / p.v0 + p.vesc / p.v0 - 1e-8 < v / p.v0
      linarith
    · rw [if_neg (show ¬ (p.fresh N).vMax < v from hm)]
      simp only [HaloPPParams.fresh, SHMpp.makeVel, SHMpp.ofSHM, SHMpp.interpolateEta, SHMpp.normalize,
        SHMpp.computeSigmas, h0]
      rw [sub_zero, one_mul, zero_mul, add_zero]
      rfl

/-- C20: an `Eta_Function` argument below the speed domain is rejected. -/
theorem C20_eta_below (s : SHMpp) (v : ℝ) (h : v < s.vMin) : s.eta v = .exit := by
  unfold SHMpp.eta; rw [if_pos h]

example : ∃ p : HaloPPParams, p.e = 0 ∧ 0 < p.v0 := ⟨⟨⟨1, 2, ![0, 3, 0], 7⟩, 0, 0.9⟩, rfl, by norm_num⟩

/-! ## C59 — the SHM++ speed distribution is a probability distribution -/

open Real Set MeasureTheory
open scoped ENNReal

/-- Physical parameters: positive dispersion and escape speed, anisotropy strictly between 0 and 1. -/
def HaloPPParams.Physical (p : HaloPPParams) : Prop := 0 < p.v0 ∧ 0 < p.vesc ∧ 0 < p.b ∧ p.b < 1

/-- Radial dispersion. -/
noncomputable def HaloPPParams.sr (p : HaloPPParams) : ℝ := √(3 * p.v0 * p.v0 / 2 / (3 - 2 * p.b))
/-- Tangential dispersion. -/
noncomputable def HaloPPParams.st (p : HaloPPParams) : ℝ := √(3 * p.v0 * p.v0 * (1 - p.b) / 2 / (3 - 2 * p.b))
/-- Prefactor of the anisotropic component. -/
noncomputable def HaloPPParams.amp (p : HaloPPParams) : ℝ := 1 / nS p.sr p.st (p.b / (1 - p.b)) p.vesc / (2 * π) ^ (1.5 : ℝ) / p.sr / p.st / p.st

theorem HaloPPParams.Physical.facts {p : HaloPPParams} (h : p.Physical) :
    0 < p.sr ∧ 0 < p.st ∧ 0 < p.b / (1 - p.b) ∧ p.sr ^ 2 = (1 + p.b / (1 - p.b)) * p.st ^ 2 ∧
    0 < nS p.sr p.st (p.b / (1 - p.b)) p.vesc ∧ 0 < p.amp := by
  obtain ⟨h1, h2, h3, h4⟩ := h
  have hb : 0 < 1 - p.b := by linarith
  have hb' : 0 < 3 - 2 * p.b := by linarith
  have q1 : 0 < 3 * p.v0 * p.v0 / 2 / (3 - 2 * p.b) := by positivity
  have q2 : 0 < 3 * p.v0 * p.v0 * (1 - p.b) / 2 / (3 - 2 * p.b) := by positivity
  have hr : 0 < p.sr := Real.sqrt_pos.2 q1
  have ht : 0 < p.st := Real.sqrt_pos.2 q2
  have hk : 0 < p.b / (1 - p.b) := by positivity
  have hrel : p.sr ^ 2 = (1 + p.b / (1 - p.b)) * p.st ^ 2 := by
    unfold HaloPPParams.sr HaloPPParams.st
    rw [Real.sq_sqrt q1.le, Real.sq_sqrt q2.le]
    field_simp
    ring
  have hn := nS_pos hr ht hk hrel h2
  refine ⟨hr, ht, hk, hrel, hn, ?_⟩
  unfold HaloPPParams.amp
  positivity

theorem fresh_pdfVelocityS (N : Numerics) (p : HaloPPParams) (h : p.Physical) (u : Vec) :
    (p.fresh N).pdfVelocityS u = sausage p.sr p.st p.amp p.vesc (u 0) (u 1) (u 2) := by
  have hN : (p.fresh N).nEscS = nS p.sr p.st (p.b / (1 - p.b)) p.vesc := by
    obtain ⟨h1, h2, h3, h4⟩ := h
    have hb : 0 < 1 - p.b := by linarith
    have : √((1 - p.b) / p.b) = 1 / √(p.b / (1 - p.b)) := by
      rw [← inv_div, Real.sqrt_inv, one_div]
    unfold nS
    rw [← this]
    rfl
  unfold SHMpp.pdfVelocityS sausage vnorm dot
  rw [hN]
  rfl

theorem fresh_pdfSpeedS (N : Numerics) (hI : N.integrate2.Exact) (p : HaloPPParams) (h : p.Physical) (v : ℝ) :
    (p.fresh N).pdfSpeedS N v = if v ≤ 0 ∨ p.vesc + vnorm p.vel ≤ v then 0 else
      v ^ 2 * (dirs (fun x y z => ENNReal.ofReal (sausage p.sr p.st p.amp p.vesc (x + p.vel 0) (y + p.vel 1) (z + p.vel 2))) v).toReal := by
  unfold SHMpp.pdfSpeedS
  by_cases hv : v ≤ 0 ∨ p.vesc + vnorm p.vel ≤ v
  · rw [if_pos hv, if_pos]; exact hv
  · rw [if_neg hv, if_neg (show ¬ (v ≤ (p.fresh N).vMin ∨ (p.fresh N).vMax ≤ v) from hv), hI]
    simp_rw [intervalIntegral.integral_const_mul]
    rw [pow_two]
    congr 1
    have hA := h.facts.2.2.2.2.2
    have hm : Measurable fun q : ℝ × ℝ × ℝ => sausage p.sr p.st p.amp p.vesc (q.1 + p.vel 0) (q.2.1 + p.vel 1) (q.2.2 + p.vel 2) :=
      (measurable_sausage p.sr p.st p.amp p.vesc).comp
        (by fun_prop : Measurable fun q : ℝ × ℝ × ℝ => (q.1 + p.vel 0, q.2.1 + p.vel 1, q.2.2 + p.vel 2))
    have := (integral_dirs (fun x y z => sausage p.sr p.st p.amp p.vesc (x + p.vel 0) (y + p.vel 1) (z + p.vel 2)) hm
      (fun _ _ _ => sausage_nonneg hA.le _ _ _) (fun _ _ _ => sausage_le hA.le _ _ _) v).2
    rw [← this]
    simp_rw [fresh_pdfVelocityS N p h]
    rfl

/-- The angular integral as a function of the speed. -/
theorem measurable_dirs (f : ℝ → ℝ → ℝ → ℝ≥0∞) (hf : Measurable fun p : ℝ × ℝ × ℝ => f p.1 p.2.1 p.2.2) : Measurable (dirs f) := by
  unfold dirs
  refine Measurable.lintegral_prod_right' (f := fun q : ℝ × ℝ => ∫⁻ φ in Ioo (-π) π, f (q.1 * sin (arccos q.2) * cos φ) (q.1 * sin (arccos q.2) * sin φ) (q.1 * q.2)) ?_
  refine Measurable.lintegral_prod_right' (f := fun q : (ℝ × ℝ) × ℝ => f (q.1.1 * sin (arccos q.1.2) * cos q.2) (q.1.1 * sin (arccos q.1.2) * sin q.2) (q.1.1 * q.1.2)) ?_
  exact hf.comp (by fun_prop : Measurable fun q : (ℝ × ℝ) × ℝ => (q.1.1 * sin (arccos q.1.2) * cos q.2, q.1.1 * sin (arccos q.1.2) * sin q.2, q.1.1 * q.1.2))

/-- The observed anisotropic component in components. -/
noncomputable def HaloPPParams.boosted (p : HaloPPParams) (x y z : ℝ) : ℝ :=
  sausage p.sr p.st p.amp p.vesc (x + p.vel 0) (y + p.vel 1) (z + p.vel 2)

theorem measurable_boosted (p : HaloPPParams) : Measurable fun q : ℝ × ℝ × ℝ => p.boosted q.1 q.2.1 q.2.2 :=
  (measurable_sausage p.sr p.st p.amp p.vesc).comp
    (by fun_prop : Measurable fun q : ℝ × ℝ × ℝ => (q.1 + p.vel 0, q.2.1 + p.vel 1, q.2.2 + p.vel 2))

theorem boosted_dirs {p : HaloPPParams} (h : p.Physical) (v : ℝ) :
    dirs (fun x y z => ENNReal.ofReal (p.boosted x y z)) v ≠ ∞ ∧
    (dirs (fun x y z => ENNReal.ofReal (p.boosted x y z)) v).toReal ≤ p.amp * (2 * π) * 2 := by
  have hA := h.facts.2.2.2.2.2
  have h1 := integral_dirs p.boosted (measurable_boosted p) (fun _ _ _ => sausage_nonneg hA.le _ _ _) (fun _ _ _ => sausage_le hA.le _ _ _) v
  refine ⟨h1.1, ?_⟩
  have : dirs (fun x y z => ENNReal.ofReal (p.boosted x y z)) v ≤ ENNReal.ofReal (p.amp * (2 * π) * 2) := by
    unfold dirs
    refine le_trans (lintegral_mono fun c => lintegral_mono fun φ => ENNReal.ofReal_le_ofReal (sausage_le hA.le _ _ _)) ?_
    rw [lintegral_const, lintegral_const, Measure.restrict_apply MeasurableSet.univ, Measure.restrict_apply MeasurableSet.univ, univ_inter,
      univ_inter, Real.volume_Ioo, Real.volume_Ioo, ← ENNReal.ofReal_mul hA.le, ← ENNReal.ofReal_mul (mul_nonneg hA.le (by linarith [pi_pos]))]
    apply le_of_eq; congr 1; ring
  exact ENNReal.toReal_le_of_le_ofReal (by positivity) this

theorem boosted_dirs_zero {p : HaloPPParams} (h : p.Physical) {v : ℝ} (hv : p.vesc + vnorm p.vel < v) :
    dirs (fun x y z => ENNReal.ofReal (p.boosted x y z)) v = 0 := by
  have he := h.2.1
  have ho := vnorm_nonneg p.vel
  have hv0 : 0 < v := by linarith
  have ho2 : vnorm p.vel ^ 2 = p.vel 0 * p.vel 0 + p.vel 1 * p.vel 1 + p.vel 2 * p.vel 2 :=
    vnorm_sq p.vel
  unfold dirs
  rw [setLIntegral_congr_fun (g := fun _ => 0) measurableSet_Ioo, lintegral_zero]
  intro c hc
  simp only
  rw [setLIntegral_congr_fun (g := fun _ => 0) measurableSet_Ioo, lintegral_zero]
  intro φ _
  simp only [HaloPPParams.boosted]
  rw [ENNReal.ofReal_eq_zero]
  unfold sausage
  rw [if_pos]
  rw [Real.lt_sqrt he.le]
  obtain ⟨x, y, z, hx, hn⟩ : ∃ x y z : ℝ, (x = sin (arccos c) * cos φ ∧ y = sin (arccos c) * sin φ ∧ z = c) ∧ x ^ 2 + y ^ 2 + z ^ 2 = 1 := by
    refine ⟨_, _, _, ⟨rfl, rfl, rfl⟩, ?_⟩
    rw [sin_arccos]
    have h1 : √(1 - c ^ 2) ^ 2 = 1 - c ^ 2 := Real.sq_sqrt (by nlinarith [hc.1, hc.2])
    have h2 := sin_sq_add_cos_sq φ
    linear_combination √(1 - c ^ 2) ^ 2 * h2 + h1
  have hcs : |x * p.vel 0 + y * p.vel 1 + z * p.vel 2| ≤ vnorm p.vel := by
    refine abs_le_of_sq_le_sq ?_ ho
    rw [ho2]
    have : (x * p.vel 0 + y * p.vel 1 + z * p.vel 2) ^ 2 + ((x * p.vel 1 - y * p.vel 0) ^ 2 + (x * p.vel 2 - z * p.vel 0) ^ 2 + (y * p.vel 2 - z * p.vel 1) ^ 2) =
        (x ^ 2 + y ^ 2 + z ^ 2) * (p.vel 0 * p.vel 0 + p.vel 1 * p.vel 1 + p.vel 2 * p.vel 2) := by ring
    rw [hn, one_mul] at this
    nlinarith [sq_nonneg (x * p.vel 1 - y * p.vel 0), sq_nonneg (x * p.vel 2 - z * p.vel 0), sq_nonneg (y * p.vel 2 - z * p.vel 1)]
  have hlow := (abs_le.1 hcs).1
  have hexp : (v * sin (arccos c) * cos φ + p.vel 0) * (v * sin (arccos c) * cos φ + p.vel 0) +
      (v * sin (arccos c) * sin φ + p.vel 1) * (v * sin (arccos c) * sin φ + p.vel 1) + (v * c + p.vel 2) * (v * c + p.vel 2) =
      v ^ 2 + 2 * v * (x * p.vel 0 + y * p.vel 1 + z * p.vel 2) + vnorm p.vel ^ 2 := by
    rw [ho2, hx.1, hx.2.1, hx.2.2]
    rw [hx.1, hx.2.1, hx.2.2] at hn
    linear_combination v ^ 2 * hn
  rw [hexp]
  nlinarith [mul_le_mul_of_nonneg_left hlow (by linarith : (0 : ℝ) ≤ 2 * v)]

theorem pdfSpeedS_props (N : Numerics) (hI : N.integrate2.Exact) (p : HaloPPParams) (h : p.Physical) :
    (∀ v, 0 ≤ (p.fresh N).pdfSpeedS N v) ∧ (∀ a b, IntervalIntegrable ((p.fresh N).pdfSpeedS N) volume a b) ∧
    ∫ v in (0 : ℝ)..(p.vesc + vnorm p.vel), (p.fresh N).pdfSpeedS N v = 1 := by
  have hA := h.facts.2.2.2.2.2
  have he := h.2.1
  have ho := vnorm_nonneg p.vel
  set D : ℝ → ℝ≥0∞ := dirs (fun x y z => ENNReal.ofReal (p.boosted x y z)) with hD
  have hDm : Measurable D := measurable_dirs _ (measurable_boosted p).ennreal_ofReal
  have heq : ∀ v, (p.fresh N).pdfSpeedS N v = if v ≤ 0 ∨ p.vesc + vnorm p.vel ≤ v then 0 else v ^ 2 * (D v).toReal :=
    fun v => fresh_pdfSpeedS N hI p h v
  have h0 : ∀ v, 0 ≤ (p.fresh N).pdfSpeedS N v := by
    intro v; rw [heq]; split_ifs
    · exact le_rfl
    · exact mul_nonneg (sq_nonneg v) ENNReal.toReal_nonneg
  have hmeas : Measurable ((p.fresh N).pdfSpeedS N) := by
    rw [show (p.fresh N).pdfSpeedS N = fun v => if v ≤ 0 ∨ p.vesc + vnorm p.vel ≤ v then 0 else v ^ 2 * (D v).toReal from funext heq]
    refine Measurable.ite ?_ measurable_const ((by fun_prop : Measurable fun v : ℝ => v ^ 2).mul hDm.ennreal_toReal)
    exact measurableSet_Iic.union measurableSet_Ici
  refine ⟨h0, fun a b => ?_, ?_⟩
  · refine intervalIntegrable_iff.2 (Measure.integrableOn_of_bounded (M := (p.vesc + vnorm p.vel) ^ 2 * (p.amp * (2 * π) * 2)) ?_ hmeas.aestronglyMeasurable ?_)
    · rw [uIoc]; simp
    · refine Filter.Eventually.of_forall fun v => ?_
      rw [Real.norm_eq_abs, abs_of_nonneg (h0 v), heq]
      split_ifs with hv
      · positivity
      · push Not at hv
        have h1 := (boosted_dirs h v).2
        exact mul_le_mul (by nlinarith) h1 ENNReal.toReal_nonneg (by positivity)
  · rw [intervalIntegral.integral_of_le (by linarith), integral_Ioc_eq_integral_Ioo,
      integral_eq_lintegral_of_nonneg_ae (Filter.Eventually.of_forall h0) hmeas.aestronglyMeasurable]
    have e1 : ∫⁻ v in Ioo (0 : ℝ) (p.vesc + vnorm p.vel), ENNReal.ofReal ((p.fresh N).pdfSpeedS N v) =
        ∫⁻ v in Ioo (0 : ℝ) (p.vesc + vnorm p.vel), ENNReal.ofReal (v ^ 2) * D v := by
      refine setLIntegral_congr_fun measurableSet_Ioo fun v hv => ?_
      rw [heq, if_neg (by push Not; exact ⟨hv.1, hv.2⟩), ENNReal.ofReal_mul (sq_nonneg v), ENNReal.ofReal_toReal (boosted_dirs h v).1]
    have e2 : ∫⁻ v in Ioi (0 : ℝ), ENNReal.ofReal (v ^ 2) * D v =
        ∫⁻ v in Ioo (0 : ℝ) (p.vesc + vnorm p.vel), ENNReal.ofReal (v ^ 2) * D v := by
      rw [setLIntegral_congr (Ioo_ae_eq_Ioc), ← inter_eq_left.2 (Ioc_subset_Ioi_self : Ioc (0 : ℝ) (p.vesc + vnorm p.vel) ⊆ Ioi 0),
        ← Measure.restrict_restrict measurableSet_Ioc, ← lintegral_indicator measurableSet_Ioc]
      refine setLIntegral_congr_fun measurableSet_Ioi fun v hv => ?_
      by_cases hm : v ≤ p.vesc + vnorm p.vel
      · rw [indicator_of_mem (show v ∈ Ioc (0 : ℝ) _ from ⟨hv, hm⟩)]
      · rw [indicator_of_notMem (fun hx : v ∈ Ioc (0 : ℝ) _ => hm hx.2), hD, boosted_dirs_zero h (not_le.1 hm), mul_zero]
    rw [e1, ← e2, hD, ← lintegral_spherical _ (measurable_boosted p).ennreal_ofReal,
      ← lintegral_components _ (measurable_boosted p).ennreal_ofReal]
    have e3 : ∫⁻ u : Fin 3 → ℝ, ENNReal.ofReal (p.boosted (u 0) (u 1) (u 2)) =
        ∫⁻ u : Fin 3 → ℝ, ENNReal.ofReal (sausage p.sr p.st p.amp p.vesc (u 0) (u 1) (u 2)) :=
      lintegral_add_right_eq_self (fun u : Fin 3 → ℝ => ENNReal.ofReal (sausage p.sr p.st p.amp p.vesc (u 0) (u 1) (u 2))) p.vel
    obtain ⟨h1, h2, h3, h4, h5, h6⟩ := h.facts
    rw [e3, lintegral_sausage h1 h2 h3 h4 h6.le he]
    have : p.amp * (2 * π) ^ (1.5 : ℝ) * p.sr * p.st ^ 2 * nS p.sr p.st (p.b / (1 - p.b)) p.vesc = 1 := by
      unfold HaloPPParams.amp
      have : (0 : ℝ) < (2 * π) ^ (1.5 : ℝ) := by positivity
      field_simp
    rw [this]; simp

theorem fresh_wf (N : Numerics) (p : HaloPPParams) (h : p.Physical) : (p.fresh N).toSHM.WF :=
  ⟨rfl, rfl, rfl, h.1, h.2.1, vnorm_nonneg _, rfl⟩

/-- C59: the speed PDF of an SHM++ is non-negative at every speed, for a fraction between 0 and 1 and an observer not
faster than the escape speed. -/
theorem C59_nonneg (N : Numerics) (hI : N.integrate2.Exact) (p : HaloPPParams) (h : p.Physical) (he : 0 ≤ p.e) (he' : p.e ≤ 1)
    (ho : vnorm p.vel ≤ p.vesc) (v : ℝ) : 0 ≤ (p.fresh N).pdfSpeed N v := by
  have h1 := (pdfSpeedS_props N hI p h).1 v
  have h2 := pdf_nonneg_wf (fresh_wf N p h) ho v
  exact add_nonneg (mul_nonneg (by have : (p.fresh N).etaS = p.e := rfl
                                   rw [this]; linarith) h2) (mul_nonneg he h1)

/-- C59: `CDF_Speed(v)` of an SHM++ is the integral of its `PDF_Speed` up to `v`, at every speed. -/
theorem C59_cdf (N : Numerics) (hI1 : N.integrate.Exact) (hI : N.integrate2.Exact) (p : HaloPPParams) (h : p.Physical)
    (ho : vnorm p.vel ≤ p.vesc) (v : ℝ) :
    (p.fresh N).cdfSpeed N v = ∫ x in (0 : ℝ)..v, (p.fresh N).pdfSpeed N x := by
  obtain ⟨h0, hint, htot⟩ := pdfSpeedS_props N hI p h
  have hw := fresh_wf N p h
  have hmax : 0 < p.vesc + vnorm p.vel := by linarith [h.2.1, vnorm_nonneg p.vel]
  have hS : (p.fresh N).cdfSpeedS N v = ∫ x in (0 : ℝ)..v, (p.fresh N).pdfSpeedS N x := by
    unfold SHMpp.cdfSpeedS
    by_cases h1 : v ≤ 0
    · rw [if_pos (show v ≤ (p.fresh N).vMin from h1)]
      symm
      rw [intervalIntegral.integral_congr (g := fun _ => 0), intervalIntegral.integral_zero]
      intro x hx
      rw [uIcc_of_ge h1] at hx
      simp only
      rw [fresh_pdfSpeedS N hI p h, if_pos (Or.inl hx.2)]
    · rw [if_neg (show ¬ v ≤ (p.fresh N).vMin from h1)]
      by_cases h2 : p.vesc + vnorm p.vel ≤ v
      · rw [if_pos (show (p.fresh N).vMax ≤ v from h2), ← intervalIntegral.integral_add_adjacent_intervals (hint 0 (p.vesc + vnorm p.vel))
          (hint _ v), htot, intervalIntegral.integral_congr (a := p.vesc + vnorm p.vel) (g := fun _ => 0), intervalIntegral.integral_zero, add_zero]
        intro x hx
        rw [uIcc_of_le h2] at hx
        simp only
        rw [fresh_pdfSpeedS N hI p h, if_pos (Or.inr hx.1)]
      · rw [if_neg (show ¬ (p.fresh N).vMax ≤ v from h2), hI1]
        rfl
  unfold SHMpp.cdfSpeed SHMpp.pdfSpeed
  have hB := cdf_eq_integral hw ho v
  have hBi := pdf_intervalIntegrable hw ho 0 v
  unfold SHM.cdfSpeed at hB
  unfold SHM.pdfSpeed at hBi hB
  rw [intervalIntegral.integral_add (hBi.const_mul _) ((hint 0 v).const_mul _), intervalIntegral.integral_const_mul,
    intervalIntegral.integral_const_mul, hS, hB]

/-- C59: the speed PDF of an SHM++ is normalised on its domain. -/
theorem C59_normalised (N : Numerics) (hI1 : N.integrate.Exact) (hI : N.integrate2.Exact) (p : HaloPPParams) (h : p.Physical)
    (ho : vnorm p.vel ≤ p.vesc) :
    ∫ x in (p.fresh N).vMin..(p.fresh N).vMax, (p.fresh N).pdfSpeed N x = 1 := by
  rw [show (p.fresh N).vMin = 0 from rfl, ← C59_cdf N hI1 hI p h ho]
  have hw := fresh_wf N p h
  have hmax : 0 < (p.fresh N).vMax := by rw [hw.vMax]; linarith [hw.vEsc_pos, hw.vObs_nonneg]
  unfold SHMpp.cdfSpeed SHM.cdfSpeedSHM SHMpp.cdfSpeedS
  rw [if_neg (by rw [hw.vMin]; linarith), if_pos le_rfl, if_neg (by rw [hw.vMin]; linarith), if_pos le_rfl]
  ring

/-- C59: shape of the anisotropic component (fraction 1): within the escape sphere around the halo rest frame it is a
Gaussian whose radial (x) and tangential (y, z) variances `sr2`, `st2` satisfy `st2 = (1-beta) sr2` and
`sr2 + 2 st2 = 3/2 v_0^2`; outside it vanishes. -/
theorem C59_shape (N : Numerics) (p : HaloPPParams) (h : p.Physical) (h1 : p.e = 1) :
    ∃ K sr2 st2 : ℝ, 0 < K ∧ 0 < sr2 ∧ st2 = (1 - p.b) * sr2 ∧ sr2 + 2 * st2 = 3 / 2 * p.v0 ^ 2 ∧
      ∀ u : Vec, (vnorm (u + p.vel) ≤ p.vesc → (p.fresh N).pdfVelocity u =
          K * exp (-((u 0 + p.vel 0) ^ 2 / (2 * sr2) + ((u 1 + p.vel 1) ^ 2 + (u 2 + p.vel 2) ^ 2) / (2 * st2)))) ∧
        (p.vesc < vnorm (u + p.vel) → (p.fresh N).pdfVelocity u = 0) := by
  obtain ⟨f1, f2, f3, f4, f5, f6⟩ := h.facts
  obtain ⟨g1, g2, g3, g4⟩ := h
  have hb : 0 < 1 - p.b := by linarith
  have hb' : 0 < 3 - 2 * p.b := by linarith
  have q1 : 0 < 3 * p.v0 * p.v0 / 2 / (3 - 2 * p.b) := by positivity
  have q2 : 0 < 3 * p.v0 * p.v0 * (1 - p.b) / 2 / (3 - 2 * p.b) := by positivity
  have s1 : p.sr ^ 2 = 3 * p.v0 * p.v0 / 2 / (3 - 2 * p.b) := Real.sq_sqrt q1.le
  have s2 : p.st ^ 2 = 3 * p.v0 * p.v0 * (1 - p.b) / 2 / (3 - 2 * p.b) := Real.sq_sqrt q2.le
  refine ⟨p.amp, p.sr ^ 2, p.st ^ 2, f6, by positivity, ?_, ?_, fun u => ?_⟩
  · rw [s1, s2]; ring
  · rw [s1, s2]; field_simp; ring
  · have hv : (p.fresh N).pdfVelocity u = sausage p.sr p.st p.amp p.vesc (u 0 + p.vel 0) (u 1 + p.vel 1) (u 2 + p.vel 2) := by
      unfold SHMpp.pdfVelocity
      rw [fresh_pdfVelocityS N p ⟨g1, g2, g3, g4⟩, show (p.fresh N).etaS = 1 from h1, sub_self, zero_mul, zero_add, one_mul]
      rfl
    rw [hv]
    unfold sausage
    have hn : √((u 0 + p.vel 0) * (u 0 + p.vel 0) + (u 1 + p.vel 1) * (u 1 + p.vel 1) + (u 2 + p.vel 2) * (u 2 + p.vel 2)) = vnorm (u + p.vel) := rfl
    rw [hn]
    refine ⟨fun hl => ?_, fun hl => if_pos hl⟩
    rw [if_neg (not_lt.2 hl)]
    congr 2
    field_simp
    ring

/-- C59: on the 100 equidistant speeds where the table of the SHM++ is filled, `Eta_Function` of the anisotropic component
(fraction 1) is the integral of `PDF_Speed(v)/v` from that speed to the maximal one. -/
theorem C59_eta (N : Numerics) (hI1 : N.integrate.Exact) (hP : N.interpolate.Nodes) (p : HaloPPParams) (h : p.Physical)
    (h1 : p.e = 1) (i : ℕ) (hi : i < 100) :
    (p.fresh N).eta (i * ((p.vesc + vnorm p.vel) / 99)) =
      .ok (∫ v in (i * ((p.vesc + vnorm p.vel) / 99) : ℝ)..(p.vesc + vnorm p.vel), (p.fresh N).pdfSpeed N v / v) := by
  have hmax : 0 < p.vesc + vnorm p.vel := by linarith [h.2.1, vnorm_nonneg p.vel]
  set M := p.vesc + vnorm p.vel with hM
  have hi99 : (i : ℝ) ≤ 99 := by exact_mod_cast Nat.le_of_lt_succ hi
  have hle : (i * (M / 99) : ℝ) ≤ M := by
    have := mul_le_mul_of_nonneg_right hi99 (by positivity : 0 ≤ M / 99)
    linarith
  have hge : (0 : ℝ) ≤ i * (M / 99) := by positivity
  unfold SHMpp.eta
  rw [if_neg (show ¬ (i * (M / 99) : ℝ) < (p.fresh N).vMin from not_lt.2 hge), if_neg (show ¬ (p.fresh N).vMax < (i * (M / 99) : ℝ) from not_lt.2 hle)]
  rw [show (p.fresh N).etaS = 1 from h1, sub_self, zero_mul, zero_add, one_mul]
  congr 1
  have hlen : (linearSpace 0 M 100).length = 100 := by simp [linearSpace]
  have hsort : (linearSpace 0 M 100).Pairwise (· < ·) := by
    unfold linearSpace
    rw [List.pairwise_map]
    refine (List.pairwise_lt_range (n := 100)).imp fun {a b} hab => ?_
    have : (a : ℝ) < b := by exact_mod_cast hab
    have hp : 0 < (M - 0) / ((100 : ℕ) - 1 : ℝ) := by norm_num; positivity
    nlinarith [mul_lt_mul_of_pos_right this hp]
  have hnode := hP (linearSpace 0 M 100) ((linearSpace 0 M 100).map ((p.fresh N).etaFunctionS N)) (by simp) hsort i (by rw [hlen]; exact hi)
    (by simp [hlen, hi])
  have hx : (linearSpace 0 M 100)[i]'(by rw [hlen]; exact hi) = i * (M / 99) := by
    simp only [linearSpace, List.getElem_map, List.getElem_range]
    push_cast
    ring
  rw [List.getElem_map, hx] at hnode
  have htab : (p.fresh N).table = N.interpolate (linearSpace 0 M 100) ((linearSpace 0 M 100).map ((p.fresh N).etaFunctionS N)) := rfl
  rw [htab, hnode]
  have hpdf : (p.fresh N).pdfSpeed N = (p.fresh N).pdfSpeedS N := by
    funext v
    unfold SHMpp.pdfSpeed
    rw [show (p.fresh N).etaS = 1 from h1, sub_self, zero_mul, zero_add, one_mul]
  rw [hpdf]
  unfold SHMpp.etaFunctionS
  by_cases hv : M ≤ i * (M / 99)
  · rw [if_pos (show _ ∨ (p.fresh N).vMax ≤ (i * (M / 99) : ℝ) from Or.inr hv), le_antisymm hle hv, intervalIntegral.integral_same]
  · rw [if_neg (by
      rintro (hc | hc)
      · exact absurd hge (not_le.2 hc)
      · exact hv hc), hI1]
    rfl

/-- Parameters and numerics that meet the hypotheses. -/
noncomputable def HaloPPParams.sample : HaloPPParams := ⟨⟨1, 2, ![0, 3, 0], 7⟩, 1, 0.9⟩

theorem HaloPPParams.sample_physical : HaloPPParams.sample.Physical := by
  unfold HaloPPParams.Physical HaloPPParams.sample; norm_num

example : HaloPPParams.sample.Physical ∧ 0 ≤ HaloPPParams.sample.e ∧ HaloPPParams.sample.e ≤ 1 ∧ HaloPPParams.sample.e = 1 ∧
    vnorm HaloPPParams.sample.vel ≤ HaloPPParams.sample.vesc := by
  refine ⟨HaloPPParams.sample_physical, by norm_num [HaloPPParams.sample], by norm_num [HaloPPParams.sample], rfl, ?_⟩
  show vnorm ![0, 3, 0] ≤ 7
  rw [vnorm_y (by norm_num)]; norm_num

/-! ### C19 fails for the eta function -/

theorem dirs_lower (f : ℝ → ℝ → ℝ → ℝ≥0∞) (r m : ℝ) (hm : 0 ≤ m)
    (h : ∀ c ∈ Ioo (-1 : ℝ) 1, ∀ φ, ENNReal.ofReal m ≤ f (r * sin (arccos c) * cos φ) (r * sin (arccos c) * sin φ) (r * c)) :
    ENNReal.ofReal (m * (2 * π) * 2) ≤ dirs f r := by
  unfold dirs
  have h1 : ENNReal.ofReal (m * (2 * π) * 2) = ∫⁻ _ in Ioo (-1 : ℝ) 1, ∫⁻ _ in Ioo (-π) π, ENNReal.ofReal m := by
    rw [lintegral_const, lintegral_const, Measure.restrict_apply MeasurableSet.univ, Measure.restrict_apply MeasurableSet.univ, univ_inter,
      univ_inter, Real.volume_Ioo, Real.volume_Ioo, ← ENNReal.ofReal_mul hm, ← ENNReal.ofReal_mul (mul_nonneg hm (by linarith [pi_pos]))]
    congr 1; ring
  rw [h1]
  exact setLIntegral_mono' measurableSet_Ioo fun c hc => lintegral_mono fun φ => h c hc φ

/-- For an observer at rest the anisotropic speed PDF is bounded below away from speed 0. -/
theorem pdfSpeedS_lower (N : Numerics) (hI : N.integrate2.Exact) (p : HaloPPParams) (h : p.Physical) (hvel : p.vel = 0) :
    ∃ m > 0, ∀ v, 0 < v → v < p.vesc → v ^ 2 * m ≤ (p.fresh N).pdfSpeedS N v := by
  obtain ⟨f1, f2, f3, f4, f5, f6⟩ := h.facts
  have h0 : vnorm p.vel = 0 := by rw [hvel]; simp [vnorm, dot]
  have hle : p.st ^ 2 ≤ p.sr ^ 2 := by rw [f4]; nlinarith [sq_nonneg p.st]
  refine ⟨p.amp * exp (-(p.vesc ^ 2 / (2 * p.st ^ 2))) * (2 * π) * 2, by positivity, fun v hv hv' => ?_⟩
  rw [fresh_pdfSpeedS N hI p h, if_neg (by rw [h0]; push Not; exact ⟨hv, by linarith⟩)]
  refine mul_le_mul_of_nonneg_left ?_ (sq_nonneg v)
  have hfin := (boosted_dirs h v).1
  refine (ENNReal.ofReal_le_iff_le_toReal hfin).1 ?_
  refine dirs_lower _ v _ (by positivity) fun c hc φ => ENNReal.ofReal_le_ofReal ?_
  unfold HaloPPParams.boosted
  have hn : (v * sin (arccos c) * cos φ) ^ 2 + (v * sin (arccos c) * sin φ) ^ 2 + (v * c) ^ 2 = v ^ 2 := by
    rw [sin_arccos]
    have h1 : √(1 - c ^ 2) ^ 2 = 1 - c ^ 2 := Real.sq_sqrt (by nlinarith [hc.1, hc.2])
    have h2 := sin_sq_add_cos_sq φ
    linear_combination v ^ 2 * √(1 - c ^ 2) ^ 2 * h2 + v ^ 2 * h1
  generalize v * sin (arccos c) * cos φ = x at hn ⊢
  generalize v * sin (arccos c) * sin φ = y at hn ⊢
  generalize v * c = z at hn ⊢
  simp only [hvel, Pi.zero_apply, add_zero]
  unfold sausage
  rw [if_neg (by
    rw [show x * x + y * y + z * z = v ^ 2 by linarith, Real.sqrt_sq hv.le]; exact not_lt.2 hv'.le)]
  refine mul_le_mul_of_nonneg_left (exp_le_exp.2 ?_) f6.le
  have e1 : x * x / 2 / p.sr / p.sr ≤ x * x / (2 * p.st ^ 2) := by
    rw [div_div, div_div]
    exact div_le_div_of_nonneg_left (mul_self_nonneg x) (by positivity) (by nlinarith)
  have e2 : y * y / 2 / p.st / p.st = y * y / (2 * p.st ^ 2) := by rw [div_div, div_div]; congr 1; ring
  have e3 : z * z / 2 / p.st / p.st = z * z / (2 * p.st ^ 2) := by rw [div_div, div_div]; congr 1; ring
  have e4 : (x * x + y * y + z * z) / (2 * p.st ^ 2) ≤ p.vesc ^ 2 / (2 * p.st ^ 2) :=
    div_le_div_of_nonneg_right (by nlinarith) (by positivity)
  rw [add_div, add_div] at e4
  rw [e2, e3, show -x * x / 2 / p.sr / p.sr = -(x * x / 2 / p.sr / p.sr) by ring]
  linarith

/-- C19 fails for the eta function: after lowering the escape speed of an observer at rest to a third, `Eta_Function` at the
new maximal speed is not what an SHM++ freshly constructed with that escape speed returns, whatever (exact) numerical
routines are used. -/
theorem C19_fails (U : Units) (N : Numerics) (hI1 : N.integrate.Exact) (hI : N.integrate2.Exact) (hP : N.interpolate.Nodes)
    (rho v0 vesc b : ℝ) (hv0 : 0 < v0) (hesc : 0 < vesc) (hb : 0 < b) (hb' : b < 1) :
    let p : HaloPPParams := ⟨⟨rho, v0, 0, vesc⟩, 1, b⟩
    let q : HaloPPParams := ⟨⟨rho, v0, 0, vesc / 3⟩, 1, b⟩
    ∃ v, (SHMpp.run U (p.fresh N) [.base (.setEscapeVelocity (vesc / 3))]).eta v ≠ (q.fresh N).eta v := by
  intro p q
  have hp : p.Physical := ⟨hv0, hesc, hb, hb'⟩
  have hq : q.Physical := ⟨hv0, by show 0 < vesc / 3; positivity, hb, hb'⟩
  have hz : vnorm (0 : Vec) = 0 := by simp [vnorm, dot]
  have hqn := C59_eta N hI1 hP q hq rfl 99 (by norm_num)
  have hpn := C59_eta N hI1 hP p hp rfl 33 (by norm_num)
  have e1 : q.vesc + vnorm q.vel = vesc / 3 := by show vesc / 3 + vnorm 0 = _; rw [hz, add_zero]
  have e2 : p.vesc + vnorm p.vel = vesc := by show vesc + vnorm 0 = _; rw [hz, add_zero]
  rw [e1] at hqn
  rw [e2] at hpn
  have e3 : ((99 : ℕ) : ℝ) * (vesc / 3 / 99) = vesc / 3 := by push_cast; ring
  have e4 : ((33 : ℕ) : ℝ) * (vesc / 99) = vesc / 3 := by push_cast; ring
  rw [e3, intervalIntegral.integral_same] at hqn
  rw [e4] at hpn
  refine ⟨vesc / 3, ?_⟩
  have hst := C19_eta_stale U N p [.base (.setEscapeVelocity (vesc / 3))] (vesc / 3)
    (show (0 : ℝ) ≤ vesc / 3 by positivity) (show vesc / 3 ≤ vesc / 3 + vnorm 0 by rw [hz, add_zero])
  have hold : (p.fresh N).eta (vesc / 3) = .ok ((p.fresh N).table (vesc / 3)) := by
    unfold SHMpp.eta
    rw [if_neg (show ¬ vesc / 3 < (p.fresh N).vMin from not_lt.2 (show (0 : ℝ) ≤ vesc / 3 by positivity)),
      if_neg (show ¬ (p.fresh N).vMax < vesc / 3 from not_lt.2 (show vesc / 3 ≤ vesc + vnorm 0 by rw [hz]; linarith))]
    rw [show (p.fresh N).etaS = 1 from rfl, sub_self, zero_mul, zero_add, one_mul]
  rw [hst, hqn]
  have hafter : (p.afterAll U [.base (.setEscapeVelocity (vesc / 3))]).e = 1 := rfl
  rw [hafter, sub_self, zero_mul, zero_add, one_mul]
  intro hc
  rw [hold, Outcome.ok.injEq] at hpn
  rw [Outcome.ok.injEq, hpn] at hc
  have hpdf : (p.fresh N).pdfSpeed N = (p.fresh N).pdfSpeedS N := by
    funext v
    unfold SHMpp.pdfSpeed
    rw [show (p.fresh N).etaS = 1 from rfl, sub_self, zero_mul, zero_add, one_mul]
  rw [hpdf] at hc
  obtain ⟨m, hm, hlow⟩ := pdfSpeedS_lower N hI p hp rfl
  have hint := (pdfSpeedS_props N hI p hp).2.1 (vesc / 3) vesc
  have hpos : 0 < ∫ v in (vesc / 3)..vesc, (p.fresh N).pdfSpeedS N v / v := by
    refine lt_of_lt_of_le ?_ (intervalIntegral.integral_mono_on_of_le_Ioo (f := fun _ => vesc / 3 * m) (by linarith) (by simp) ?_ ?_)
    · rw [intervalIntegral.integral_const, smul_eq_mul]
      have : 0 < vesc - vesc / 3 := by linarith
      positivity
    · simp_rw [div_eq_mul_inv]
      refine hint.mul_continuousOn ?_
      rw [uIcc_of_le (by linarith)]
      exact continuousOn_id.inv₀ fun x hx => by have := hx.1; simp only [id]; linarith
    · intro v hv
      have hv0 : 0 < v := by linarith [hv.1]
      rw [le_div_iff₀ hv0]
      have := hlow v hv0 hv.2
      have h3 : vesc / 3 * v ≤ v ^ 2 := by nlinarith [hv.1]
      nlinarith [mul_le_mul_of_nonneg_right h3 hm.le]
  linarith

end Obscura
