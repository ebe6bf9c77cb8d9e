import Verif.Spec.NuclearDetector
import Verif.Lemmas.Detector
import Verif.Props.Kinematics
import Verif.Props.CrossSections

/-!
# Helper lemmas: nuclear recoil rates
-/

namespace Obscura

open Spec MeasureTheory

variable {U : Units}

/-! ### Sums that may fail -/

theorem sumOver_ok {α : Type} {f : α → Outcome ℝ} {g : α → ℝ} {l : List α} (h : ∀ a ∈ l, f a = .ok (g a)) :
    sumOver f l = .ok (l.map g).sum := by
  simp [sumOver, collect_ok h, foldl_add_eq_sum]

/-- Multiply the result of a computation. -/
noncomputable def Outcome.scale (k : ℝ) (o : Outcome ℝ) : Outcome ℝ := o >>= fun x => .ok (k * x)

theorem Outcome.scale_valueOr0 (k : ℝ) (o : Outcome ℝ) : (o.scale k).valueOr0 = k * o.valueOr0 := by
  cases o <;> simp [scale, valueOr0]

theorem collect_scale {α : Type} (k : ℝ) {f f' : α → Outcome ℝ} {l : List α} (h : ∀ a ∈ l, f' a = (f a).scale k) :
    collect f' l = collect f l >>= fun xs => .ok (xs.map fun x => k * x) := by
  induction l with
  | nil => rfl
  | cons a l ih =>
    rw [collect, collect, h a (by simp), ih fun b hb => h b (by simp [hb])]
    cases f a <;> simp [Outcome.scale]
    cases collect f l <;> simp

theorem sumOver_scale {α : Type} (k : ℝ) {f f' : α → Outcome ℝ} {l : List α} (h : ∀ a ∈ l, f' a = (f a).scale k) :
    sumOver f' l = (sumOver f l).scale k := by
  unfold sumOver
  rw [collect_scale k h]
  cases collect f l <;> simp [Outcome.scale, foldl_add_eq_sum]
  rename_i xs
  induction xs with
  | nil => simp
  | cons a xs ih => simp [ih, mul_add]

theorem sumOver_congr {α : Type} {f g : α → Outcome ℝ} {l : List α} (h : ∀ a ∈ l, f a = g a) : sumOver f l = sumOver g l := by
  have : collect f l = collect g l := by
    induction l with
    | nil => rfl
    | cons a l ih => rw [collect, collect, h a (by simp), ih fun b hb => h b (by simp [hb])]
  rw [sumOver, sumOver, this]

theorem sumOver_map {α β : Type} (f : β → Outcome ℝ) (e : α → β) (l : List α) : sumOver f (l.map e) = sumOver (f ∘ e) l := by
  have : collect f (l.map e) = collect (f ∘ e) l := by
    induction l with
    | nil => rfl
    | cons a l ih => rw [List.map_cons, collect, collect, ih]; rfl
  rw [sumOver, sumOver, this]

theorem sumOver_append {α : Type} (f : α → Outcome ℝ) (l₁ l₂ : List α) :
    sumOver f (l₁ ++ l₂) = (do
      let a ← sumOver f l₁
      let b ← sumOver f l₂
      .ok (a + b)) := by
  have : collect f (l₁ ++ l₂) = (do
      let a ← collect f l₁
      let b ← collect f l₂
      .ok (a ++ b)) := by
    induction l₁ with
    | nil => cases h : collect f l₂ <;> simp [collect, h]
    | cons a l ih =>
      rw [List.cons_append, collect, collect, ih]
      cases f a <;> simp
      cases collect f l <;> simp
      cases collect f l₂ <;> simp
  rw [sumOver, sumOver, sumOver, this]
  cases collect f l₁ <;> simp
  cases collect f l₂ <;> simp [foldl_add_eq_sum]

/-! ### One isotope -/

theorem dSigmadER_speed (p : DMParticle) (ER : ℝ) (iso : Isotope) (v : ℝ) :
    v * p.dSigmadERNucleus U ER iso v = 1 / v * ((1 / 1000) * (1 / 1000) * p.dSigmadERNucleus U ER iso (1 / 1000)) := by
  unfold DMParticle.dSigmadERNucleus DMParticle.dSigmadq2Nucleus
  by_cases hv : v = 0
  · simp [hv]
  · split
    · field_simp
    · split_ifs
      · simp
      · field_simp

theorem reach_set {m M E vMax : ℝ} (hm : 0 < m) (hM : 0 < M) :
    {v : ℝ | 0 ≤ v ∧ v ≤ vMax ∧ E ≤ 2 * (m * M / (m + M)) ^ 2 * v ^ 2 / M} = Set.Icc (vMinimalNucleus E m M) vMax := by
  ext v
  simp only [Set.mem_ofPred_eq, Set.mem_Icc]
  have h0 : 0 ≤ vMinimalNucleus E m M := Real.sqrt_nonneg _
  have h : ∀ v, maximumNuclearRecoilEnergy v m M = 2 * (m * M / (m + M)) ^ 2 * v ^ 2 / M := fun v => by
    unfold maximumNuclearRecoilEnergy reducedMass; ring
  rw [← h]
  constructor
  · rintro ⟨h1, h2, h3⟩; exact ⟨(C12_galois hm hM h1).2 h3, h2⟩
  · rintro ⟨h1, h2⟩
    have := h0.trans h1
    exact ⟨this, h2, (C12_galois hm hM this).1 h1⟩

theorem isotopeRate_eq {p : DMParticle} {h : Distribution} {iso : Isotope} {E : ℝ} (hm : 0 < p.mass) (hM : 0 < iso.mass) :
    (h.vMax < vMinimalNucleus E p.mass iso.mass → isotopeRate U p h iso E = 0) ∧
    (vMinimalNucleus E p.mass iso.mass ≤ h.vMax → isotopeRate U p h iso E =
      p.fractionalDensity * h.density / (p.mass * iso.mass) *
        ∫ v in (vMinimalNucleus E p.mass iso.mass)..h.vMax, v * h.pdfSpeed v * p.dSigmadERNucleus U E iso v) := by
  unfold isotopeRate
  rw [reach_set hm hM]
  constructor
  · intro h1; rw [Set.Icc_eq_empty (not_le.2 h1)]; simp
  · intro h1; rw [integral_Icc_eq_integral_Ioc, intervalIntegral.integral_of_le h1]

/-- The computed rate is the textbook one, with either method. -/
theorem dRdERIsotope_eq {I : Integrator} {p : DMParticle} {h : Distribution} {iso : Isotope} {E : ℝ} (hI : I.Exact)
    (hm : 0 < p.mass) (hM : 0 < iso.mass)
    (heta : p.useEtaFunction = true → h.useEta = true → vMinimalNucleus E p.mass iso.mass ≤ h.vMax →
      EtaAt h (vMinimalNucleus E p.mass iso.mass)) :
    dRdERIsotope U I E p h iso = .ok (isotopeRate U p h iso E) := by
  have hR := isotopeRate_eq (U := U) (h := h) (E := E) hm hM
  unfold dRdERIsotope
  dsimp only
  split_ifs with h1 h2
  · rw [hR.1 h1]
  · rw [hR.2 (not_lt.1 h1), show h.eta _ = _ from heta h2.1 h2.2 (not_lt.1 h1)]
    simp only [Outcome.bind_ok, Outcome.ok.injEq]
    rw [mul_assoc (1 / iso.mass * _ / _), ← intervalIntegral.integral_const_mul]
    have : ∀ v, v * h.pdfSpeed v * p.dSigmadERNucleus U E iso v =
        1 / 1000 * (1 / 1000) * p.dSigmadERNucleus U E iso (1 / 1000) * (h.pdfSpeed v / v) := fun v => by
      rw [mul_right_comm, dSigmadER_speed]; ring
    simp only [this]
    field_simp
  · rw [hR.2 (not_lt.1 h1), hI]
    have : ∀ v, h.differentialFlux v p.mass * p.dSigmadERNucleus U E iso v =
        h.density / p.mass * (v * h.pdfSpeed v * p.dSigmadERNucleus U E iso v) := fun v => by
      unfold Distribution.differentialFlux; ring
    simp only [this, intervalIntegral.integral_const_mul, Outcome.ok.injEq]
    field_simp

theorem dRdERIsotope_scale {I : Integrator} {p p' : DMParticle} {h : Distribution} {iso : Isotope} {E k : ℝ}
    (hI : I.Homogeneous) (hs : ScaledBy U "Nuclei" k p p') :
    dRdERIsotope U I E p' h iso = (dRdERIsotope U I E p h iso).scale k := by
  have hd : ∀ E v, p'.dSigmadERNucleus U E iso v = k * p.dSigmadERNucleus U E iso v := fun E v => by
    unfold DMParticle.dSigmadERNucleus
    rw [hs.nuclei]; simp; ring
  unfold dRdERIsotope
  rw [hs.mass, hs.fraction, hs.useEta]
  dsimp only
  split_ifs with h1 h2
  · simp [Outcome.scale]
  · cases h.eta _ <;> simp [Outcome.scale, hd]
    ring
  · simp only [Outcome.scale, Outcome.bind_ok, Outcome.ok.injEq]
    rw [mul_left_comm k, ← hI k]
    congr 2
    funext v
    rw [hd]; ring

namespace NuclearDetector

variable {I : Integrator} {nd : NuclearDetector} {d : Detector} {p p' : DMParticle} {h : Distribution}

theorem dRdERNucleus_scale {n : Nucleus} {E k : ℝ} (hI : I.Homogeneous) (hs : ScaledBy U "Nuclei" k p p') :
    dRdERNucleus U I E p' h n = (dRdERNucleus U I E p h n).scale k := by
  refine sumOver_scale k fun iso _ => ?_
  rw [dRdERIsotope_scale hI hs]
  cases dRdERIsotope U I E p h iso <;> simp [Outcome.scale]
  ring

theorem theoryRate_scale {E ER k : ℝ} (hI : I.Homogeneous) (hs : ScaledBy U "Nuclei" k p p') :
    nd.theoryRate U I d E ER p' h = (nd.theoryRate U I d E ER p h).scale k := by
  refine sumOver_scale k fun i _ => ?_
  cases vecGet nd.nuclei i <;> simp [Outcome.scale]
  rename_i n
  cases nd.efficiency i E <;> simp
  cases vecGet nd.fractions i <;> simp
  rw [dRdERNucleus_scale hI hs]
  cases dRdERNucleus U I ER p h n <;> simp [Outcome.scale]
  ring

theorem dRdE_scale {E k : ℝ} (hI : I.Homogeneous) (hs : ScaledBy U "Nuclei" k p p') :
    nd.dRdE U I d E p' h = (nd.dRdE U I d E p h).scale k := by
  unfold dRdE
  split_ifs with h1
  · exact theoryRate_scale hI hs
  · simp only [Outcome.scale, Outcome.bind_ok, Outcome.ok.injEq]
    rw [← hI]
    congr 1
    funext ER
    rw [theoryRate_scale hI hs, Outcome.scale_valueOr0]; ring

theorem mem_isotopes {n : Nucleus} {iso : Isotope} (hn : n ∈ nd.nuclei) (hi : iso ∈ n.isotopes) : iso ∈ nd.isotopes :=
  List.mem_flatMap.2 ⟨n, hn, hi⟩

theorem efficiency_eq (nd : NuclearDetector) {i : ℕ} (E : ℝ) (hi : i < nd.nuclei.length) :
    nd.efficiency i E = .ok (efficiencyOf nd i E) := by
  unfold efficiency efficiencyOf
  cases nd.usingTables
  · simp
  · simp only [if_true, true_and]
    split_ifs with h1 h2
    · rw [vecGet_lt (by omega)]; simp [List.getD, h1]
    · rw [vecGet_lt (by omega)]; simp [List.getD, h2, hi]
    · rfl

/-- A general form: if every isotope's rate is known, so is the sum. -/
theorem theoryRate_eq_of {E ER : ℝ} {g : Isotope → ℝ} (hf : nd.nuclei.length ≤ nd.fractions.length)
    (hg : ∀ iso ∈ nd.isotopes, dRdERIsotope U I ER p h iso = .ok (g iso)) :
    nd.theoryRate U I d E ER p h = .ok (∑ i : Fin nd.nuclei.length,
      efficiencyOf nd i E * d.flatEfficiency * nd.fractions.getD i 0 *
        (nd.nuclei[i].isotopes.map fun iso => iso.abundance * g iso).sum) := by
  unfold theoryRate
  rw [sumOver_ok (g := fun i => if hi : i < nd.nuclei.length then efficiencyOf nd i E * d.flatEfficiency * nd.fractions.getD i 0 *
        (nd.nuclei[i].isotopes.map fun iso => iso.abundance * g iso).sum else 0)]
  · rw [Outcome.ok.injEq, show ∀ (n : ℕ) (f : ℕ → ℝ), ((List.range n).map f).sum = ∑ i ∈ Finset.range n, f i from
      fun n f => rfl, Finset.sum_range]
    simp
  · intro i hi
    have hi : i < nd.nuclei.length := List.mem_range.1 hi
    rw [vecGet_lt hi, efficiency_eq nd E hi, vecGet_lt (hi.trans_le hf)]
    simp only [Outcome.bind_ok]
    unfold dRdERNucleus
    rw [sumOver_ok (g := fun iso => iso.abundance * g iso)]
    · simp [hi, List.getD, hi.trans_le hf]
    · intro iso hiso
      rw [hg iso (mem_isotopes (List.getElem_mem hi) hiso)]; rfl

end NuclearDetector
end Obscura
