import Verif.Props.IonizationRates

/-!
# A concrete ionization detector with events

The witnesses for the theorems on ionization detectors: a xenon detector, a constructed particle and a halo with a positive rate.
-/

namespace Obscura

open Spec

namespace IonizationDetector

variable {U : Units} {I : Integrator} {a : Atom} {e : AtomicElectron}

theorem forall₂_mem {α β : Type} {R : α → β → Prop} {l : List α} {bs : List β} (h : List.Forall₂ R l bs) {b : β} (hb : b ∈ bs) :
    ∃ x ∈ l, R x b := by
  induction h with
  | nil => cases hb
  | cons h4 _ ih =>
    rcases List.mem_cons.1 hb with rfl | hb
    · exact ⟨_, by simp, h4⟩
    · obtain ⟨x, hx, h5⟩ := ih hb
      exact ⟨x, by simp [hx], h5⟩

theorem atom_shell_make {P : Interpolator2D} {tables : ResponseTables} {file : Option (List NuclearRow)} {c c' : List Nucleus}
    {name : String} (hm : Atom.make U P tables file c name = .ok (c', a)) :
    ∀ e ∈ a.electrons, ∃ el, ∃ s : Atom.ShellData, ∃ kMax, AtomicElectron.make P tables el s.n s.l (s.energy * U.eV) (0.1 * U.keV) kMax (1 * U.keV)
      (1000 * U.keV) s.secondaries = .ok e := by
  have key : ∀ {el kMax data es}, Atom.shells U P tables el kMax data = .ok es → ∀ e ∈ es, ∃ el, ∃ s : Atom.ShellData, ∃ kMax,
      AtomicElectron.make P tables el s.n s.l (s.energy * U.eV) (0.1 * U.keV) kMax (1 * U.keV) (1000 * U.keV) s.secondaries = .ok e := by
    intro el kMax data es hs e he
    unfold Atom.shells at hs
    obtain ⟨es', h1, h2⟩ := Outcome.bind_eq_ok.1 hs
    cases h2
    have he : e ∈ es' := List.mem_reverse.1 he
    have h3 := collect_forall₂ h1
    obtain ⟨s, _, h4⟩ := forall₂_mem h3 he
    exact ⟨_, s, _, h4⟩
  unfold Atom.make at hm
  obtain ⟨⟨c1, n⟩, h1, hm⟩ := Outcome.bind_eq_ok.1 hm
  dsimp only at hm
  split_ifs at hm
  · obtain ⟨es, h2, h3⟩ := Outcome.bind_eq_ok.1 hm
    cases h3
    exact key h2
  · obtain ⟨es, h2, h3⟩ := Outcome.bind_eq_ok.1 hm
    cases h3
    exact key h2

/-- With tables of ones interpolated by one, the form factor is one at tabulated momenta and never negative. -/
theorem ones_formFactor {tables : ResponseTables} {el : String} {N L s : ℕ} {B k0 k1 q0 q1 : ℝ}
    (hm : AtomicElectron.make (fun _ _ _ _ _ => 1) tables el N L B k0 k1 q0 q1 s = .ok e) (q E : ℝ) :
    0 ≤ e.ionizationFormFactor U q E ∧
    (e.qMin < q → q ≤ e.qMax → 0 < e.kMin → 0 < e.qMax → Real.sqrt (2 * U.mElectron * E) = e.kMin → e.kMin < e.kMax →
      e.ionizationFormFactor U q E = 1) := by
  obtain ⟨_, rs, _, _, hrs, hresp, _⟩ := AtomicElectron.make_eq hm
  have hone : ∀ f ∈ e.responses, f = fun _ _ => 1 := by
    intro f hf
    rw [hresp] at hf
    obtain ⟨r, hr, rfl⟩ := List.mem_map.1 hf
    have h3 := collect_forall₂ hrs
    obtain ⟨i, _, h4⟩ := forall₂_mem h3 hr
    unfold AtomicElectron.importResponse at h4
    split at h4
    · cases h4
    · obtain ⟨row, _, h5⟩ := Outcome.bind_eq_ok.1 h4
      cases h5; rfl
  have hlen : e.responses.length = 4 := by
    rw [hresp, List.length_map, (collect_eq_ok_length hrs).1]; rfl
  have hget : vecGet e.responses 0 = .ok fun _ _ => 1 := by
    rw [vecGet_lt (by omega)]
    rw [hone _ (List.getElem_mem _)]
  unfold AtomicElectron.ionizationFormFactor AtomicElectron.response
  dsimp only
  rw [hget]
  constructor
  · by_cases h1 : 1.000001 * e.qMax < q ∨ 1.000001 * e.kMax < Real.sqrt (2 * U.mElectron * E) ∨
        Real.sqrt (2 * U.mElectron * E) < 0.999999 * e.kMin
    · rw [if_pos h1]; exact le_rfl
    · rw [if_neg h1, if_pos rfl, Outcome.bind_ok]
      split_ifs
      · exact zero_le_one
      · simp only [Outcome.valueOr0, mul_one]
        rw [div_div, ← sq, ← sq]
        positivity
  · intro h1 h2 h3 h4 h5 h6
    rw [h5, if_neg (by push Not; refine ⟨by linarith, by linarith, by linarith⟩), if_pos rfl, Outcome.bind_ok, if_pos h1]
    rfl

/-- The rate of a shell with the form factor one at tabulated momenta. -/
theorem shell_rate_pos {p : DMParticle} (hm : p.mass = 1) (hu : p.useEtaFunction = true) (hse : 0 < p.sigmaElectron)
    (hint : p.interaction = .SI .contact (Units.sample.aEM * Units.sample.mElectron) 0) {d : Detector} (hd : d.flatEfficiency = 1)
    {n : Nucleus} (hM : 0 < n.averageMass) (hB : 0 < e.binding) (hB' : e.binding ≤ 40000 * Units.sample.eV)
    (hq1 : e.qMax = 1000 * Units.sample.keV) {E : ℝ} (hE : 0 < E) (hE' : E ≤ 1 / 10 ^ 4)
    (hF : ∀ q E, 0 ≤ e.ionizationFormFactor Units.sample q E) (hF1 : e.ionizationFormFactor Units.sample e.qMax E = 1) :
    ∃ r, shellRateER Units.sample I sampleHalo d E p n e = .ok r ∧ 0 < r := by
  have hpdf : ∀ v, 0 ≤ v → 0 ≤ sampleHalo.pdfSpeed v := fun v hv => by
    simp only [sampleHalo]; split_ifs <;> linarith
  have hme := Units.sample.mElectron_pos
  have hB2 : e.binding ≤ 4 / 10 ^ 5 := by refine hB'.trans (le_of_eq ?_); norm_num [Units.sample]
  have hq : e.qMax = 1 / 1000 := by rw [hq1]; norm_num [Units.sample, Units.keV]
  have hs : Real.sqrt (1 - 2 * e.binding) ^ 2 = 1 - 2 * e.binding := Real.sq_sqrt (by linarith)
  have hs0 := Real.sqrt_nonneg (1 - 2 * e.binding)
  have hv1 : sampleHalo.vMax = 1 := rfl
  have hqmin : qMinER p.mass sampleHalo.vMax e.binding = 1 - Real.sqrt (1 - 2 * e.binding) := by
    unfold qMinER; rw [hm, hv1]; norm_num
  have hqmax : qMaxER p.mass sampleHalo.vMax e.binding = 1 + Real.sqrt (1 - 2 * e.binding) := by
    unfold qMaxER; rw [hm, hv1]; norm_num
  have hlo0 : 0 < 1 - Real.sqrt (1 - 2 * e.binding) := by nlinarith
  have hlo1 : 1 - Real.sqrt (1 - 2 * e.binding) < 1 / 1000 := by nlinarith
  unfold shellRateER dRdEeER
  dsimp only
  rw [if_neg (by unfold energeticallyClosed; rw [hm, hv1]; linarith), hqmin, hqmax, hq, if_neg (by linarith), if_neg (not_le.2 hlo0),
    if_pos (show 1 / 1000 < 1 + Real.sqrt (1 - 2 * e.binding) by linarith), logSpace_get (by norm_num), Outcome.bind_ok, logSpace_get (by norm_num), Outcome.bind_ok,
    log_step hlo0 (by norm_num)]
  have hcs : ∀ q, 0 ≤ p.d2SigmaIonization Units.sample q E (1 / 1000) e := fun q => d2SigmaIonization_nonneg hse.le hF hE.le _ _
  have hl : 0 < Real.log (1 / 1000 / (1 - Real.sqrt (1 - 2 * e.binding))) / (((100 : ℕ) : ℝ) - 1) :=
    div_pos (Real.log_pos ((one_lt_div hlo0).2 hlo1)) (by norm_num)
  have hlast : (1 / 1000 : ℝ) ∈ logSpace (1 - Real.sqrt (1 - 2 * e.binding)) (1 / 1000) 100 := by
    unfold logSpace
    refine List.mem_map.2 ⟨99, by simp, ?_⟩
    norm_num
    field_simp
  obtain ⟨r, h1, _, h3⟩ := sumOver_nonneg (f := dRdEeERTerm Units.sample I E
      (Real.log (1 / 1000 / (1 - Real.sqrt (1 - 2 * e.binding))) / (((100 : ℕ) : ℝ) - 1)) p sampleHalo e)
      (l := logSpace (1 - Real.sqrt (1 - 2 * e.binding)) (1 / 1000) 100) fun q hq => by
    unfold dRdEeERTerm
    dsimp only
    split_ifs with h1 h2
    · refine ⟨_, rfl, ?_⟩
      have hq0 := logSpace_pos hlo0 (by norm_num) hq
      have := hcs q
      have h4 : 0 ≤ if vMinimalElectrons q (e.binding + E) p.mass ≤ 1 then 2 * (1 - vMinimalElectrons q (e.binding + E) p.mass) else 0 := by
        split_ifs <;> linarith
      have h5 : (0 : ℝ) ≤ sampleHalo.density := zero_le_one
      rw [hm] at h4 ⊢
      positivity
    · exact absurd ⟨hu, rfl⟩ h2
    · exact ⟨0, rfl, le_rfl⟩
  rw [h1]
  refine ⟨_, rfl, ?_⟩
  rw [hd]
  have := h3 ⟨1 / 1000, hlast, by
    have hv : vMinimalElectrons (1 / 1000) (e.binding + E) p.mass < 1 := by
      unfold vMinimalElectrons; rw [hm]; linarith
    unfold dRdEeERTerm
    dsimp only
    rw [if_pos (by rw [hv1]; exact hv), if_pos ⟨hu, rfl⟩]
    refine ⟨_, rfl, ?_⟩
    rw [if_pos hv.le]
    rw [hm] at hv ⊢
    have h4 : 0 < p.d2SigmaIonization Units.sample (1 / 1000) E (1 / 1000) e := by
      unfold DMParticle.d2SigmaIonization DMParticle.dSigmadq2Electron
      simp only [hint, DMParticle.formFactor2]
      rw [← hq, hF1]
      have h1 := reducedMass_pos (one_pos) Units.sample.mElectron_pos
      unfold DMParticle.sigmaElectron at hse
      rw [hm, hq]
      positivity
    have h5 : (0 : ℝ) < sampleHalo.density := zero_lt_one
    have h6 : 0 < 1 - vMinimalElectrons (1 / 1000) (e.binding + E) 1 := by linarith
    positivity⟩
  positivity

theorem xenon_averageMass (U : Units) : 0 < (element U shippedTable 54).averageMass := by
  have hmN := U.mNucleon_pos
  unfold Nucleus.averageMass
  rw [← List.foldl_map (f := fun iso : Isotope => iso.mass * iso.abundance), foldl_add_eq_sum]
  have h1 := (C60_fails (U := U)).2.2.1
  have h2 := (C60_abundances_partial (U := U)).1
  have h3 := (C51_shipped_table (U := U)).2.2
  have hall : ∀ iso ∈ (element U shippedTable 54).isotopes, 54 * U.mNucleon * iso.abundance ≤ iso.mass * iso.abundance := by
    intro iso hiso
    obtain ⟨r, hr, rfl⟩ := List.mem_map.1 hiso
    obtain ⟨hr1, hr2⟩ := List.mem_filter.1 hr
    have hA := h3 r hr1
    rw [of_decide_eq_true hr2] at hA
    refine mul_le_mul_of_nonneg_right ?_ (h2 r hr1)
    change _ ≤ if r.A = 1 then U.mProton else r.A * U.mNucleon
    rw [if_neg (by omega)]
    have : (54 : ℝ) ≤ r.A := by exact_mod_cast hA
    nlinarith
  have h4 := List.sum_le_sum hall
  rw [List.sum_map_mul_left, h1] at h4
  have : 0 < 54 * U.mNucleon * 0.99999 := by positivity
  linarith

theorem shell_sum {S : ShellRate} {d : Detector} {p : DMParticle} (hU : U.keV ≤ U.mElectron) (ha : BuiltAtom U a) (he : e ∈ a.electrons)
    (hS : ∀ E, 0 < E → ∃ r, S d E p a.nucleus e = .ok r ∧ 0 ≤ r) {ne : ℕ} (hne : ne < 2 ^ 32) :
    ∃ r, rNeShell U S d ne p a.W a.nucleus e = .ok r ∧ 0 ≤ r ∧
      ((∃ k ∈ e.kGrid, 0 < releaseProbability (extraElectrons e a.W (k ^ 2 / (2 * U.mElectron))) ne ∧
        ∃ r, S d (k ^ 2 / (2 * U.mElectron)) p a.nucleus e = .ok r ∧ 0 < r) → 0 < r) := by
  have hme := U.mElectron_pos
  have hW : 0 < a.W := (atom_bindings ha).choose_spec.2.2.2.1
  have hb := ((atom_electrons ha).1 e he).1
  unfold rNeShell
  have key : ∀ k ∈ e.kGrid, ∀ r, S d (k ^ 2 / (2 * U.mElectron)) p a.nucleus e = .ok r → (do
      let Ee := k * k / 2 / U.mElectron
      let w ← pdfNe ne Ee a.W e.secondaries
      let r ← S d Ee p a.nucleus e
      .ok (Real.log 10 * e.dlogk * k * k / U.mElectron * w * r)) =
        .ok (Real.log (e.kMax / e.kMin) / ((e.kGrid.length : ℝ) - 1) * k * k / U.mElectron *
          releaseProbability (extraElectrons e a.W (k ^ 2 / (2 * U.mElectron))) ne * r) := fun k hk r hr => by
    have hE : k * k / 2 / U.mElectron = k ^ 2 / (2 * U.mElectron) := by rw [div_div, sq]
    have := kGrid_electrons hU ha he hk
    dsimp only
    rw [hE, pdfNe_eq (by positivity) hW (by linarith) hne, Outcome.bind_ok, hr, Outcome.bind_ok, log10_weight hb]
    rfl
  obtain ⟨r, h1, h2, h3⟩ := sumOver_nonneg (f := fun k : ℝ => do
      let Ee := k * k / 2 / U.mElectron
      let w ← pdfNe ne Ee a.W e.secondaries
      let r ← S d Ee p a.nucleus e
      .ok (Real.log 10 * e.dlogk * k * k / U.mElectron * w * r)) (l := e.kGrid) fun k hk => by
    have hk0 := (kGrid_bounds ha he hk).1
    obtain ⟨r, h4, h5⟩ := hS (k ^ 2 / (2 * U.mElectron)) (by positivity)
    refine ⟨_, key k hk r h4, ?_⟩
    have h6 := grid_weight_pos hb hk
    have h7 := releaseProbability_nonneg (extraElectrons e a.W (k ^ 2 / (2 * U.mElectron))) ne
    positivity
  refine ⟨r, h1, h2, fun ⟨k, hk, h4, r', h5, h6⟩ => h3 ⟨k, hk, _, key k hk r' h5, ?_⟩⟩
  have hk0 := (kGrid_bounds ha he hk).1
  have h8 := grid_weight_pos hb hk
  positivity

/-- A xenon detector and a particle with a positive rate of single electrons; all rates are defined and not negative. -/
theorem ionization_positive (hI : I.Exact) (expo : ℝ) : ∃ (P : Interpolator2D) (tables : ResponseTables) (c : List Nucleus)
    (s : Detector × IonizationDetector) (p : DMParticle) (r : ℝ),
    makeOne Units.sample P tables (some shippedTable) [] "" expo "Electrons" "Xe" = .ok (c, s) ∧ Reachable Units.sample p ∧
    0 < p.mass ∧ s.2.rNe Units.sample (shellRateER Units.sample I sampleHalo) s.1 1 p = .ok r ∧ 0 < r ∧
    NonnegShells (shellRateER Units.sample I sampleHalo) s.1 p s.2 := by
  obtain ⟨c, xe, _, _, hm, hnuc, _⟩ := sampleAtoms Units.sample (fun _ _ _ _ _ => 1)
  obtain ⟨x, hx0, hx, hmk, _⟩ := makeSI_eq (U := Units.sample) (m := 1) (s := 1) one_pos zero_le_one
  set p : DMParticle := { DMParticle.standard Units.sample 1 1 (.SI .contact (Units.sample.aEM * Units.sample.mElectron) 0) with
    fp := x, fn := x } with hp
  have hbuilt : BuiltAtom Units.sample xe := ⟨_, _, _, _, _, _, hm⟩
  have hmake := atom_shell_make hm
  obtain ⟨hsh, _⟩ := atom_electrons hbuilt
  obtain ⟨B₀, hB1, _, ⟨e₀, he₀, _⟩, hW, _, hbind⟩ := atom_bindings hbuilt
  have hM : 0 < xe.nucleus.averageMass := by rw [hnuc]; exact xenon_averageMass _
  have hpdf : ∀ v, 0 ≤ v → 0 ≤ sampleHalo.pdfSpeed v := fun v hv => by
    simp only [sampleHalo]; split_ifs <;> linarith
  have hF : ∀ e ∈ xe.electrons, ∀ q E, 0 ≤ e.ionizationFormFactor Units.sample q E := fun e he q E => by
    obtain ⟨_, _, _, h⟩ := hmake e he
    exact (ones_formFactor h q E).1
  have hBpos : ∀ e ∈ xe.electrons, 0 < e.binding := fun e he => by
    have := (hbind e he).2.1
    have := Units.sample.eV_pos
    linarith
  have hse : 0 < p.sigmaElectron := by
    have h2 := Units.sample.cm_pos
    simp only [hp, DMParticle.standard, DMParticle.sigmaElectron]
    positivity
  have hnn : NonnegShells (shellRateER Units.sample I sampleHalo) (Detector.make "" expo "Electrons") p (initial [xe] [1]) := by
    intro a ha e he E hE
    obtain rfl : a = xe := by simpa [initial] using ha
    exact C68_electron_recoil hI one_pos one_pos (hBpos e he) hM hE hse.le (hF e he) zero_le_one hpdf zero_le_one
      fun _ _ v h1 h2 => sampleHalo_eta v h1.le h2
  have hkeV : Units.sample.keV = 1 / 10 ^ 6 := by norm_num [Units.sample, Units.keV]
  have hme : Units.sample.mElectron = 1 / 2000 := rfl
  have hU : Units.sample.keV ≤ Units.sample.mElectron := by rw [hkeV, hme]; norm_num
  have hkMax : ∀ e ∈ xe.electrons, e.kMin < e.kMax := fun e he => by
    rw [(hsh e he).2.2.2]
    rcases atom_momenta hbuilt with ⟨_, h⟩ | ⟨_, h⟩ <;> rw [h e he, hkeV] <;> norm_num
  have hrate : ∀ e ∈ xe.electrons, ∃ r, shellRateER Units.sample I sampleHalo (Detector.make "" expo "Electrons")
      (e.kMin ^ 2 / (2 * Units.sample.mElectron)) p xe.nucleus e = .ok r ∧ 0 < r := fun e he => by
    obtain ⟨_, _, _, h⟩ := hmake e he
    obtain ⟨_, e1, e2, e3⟩ := hsh e he
    have hk0 : 0 < e.kMin := by rw [e3, hkeV]; norm_num
    have hE0 : Real.sqrt (2 * Units.sample.mElectron * (e.kMin ^ 2 / (2 * Units.sample.mElectron))) = e.kMin := by
      rw [mul_div_cancel₀ _ (by rw [hme]; norm_num), Real.sqrt_sq hk0.le]
    refine shell_rate_pos rfl rfl hse rfl rfl hM (hBpos e he) (hbind e he).2.2.2 e2 (by rw [hme]; positivity) ?_ (hF e he) ?_
    · rw [e3, hkeV, hme]; norm_num
    · refine (ones_formFactor h _ _).2 ?_ le_rfl hk0 ?_ hE0 (hkMax e he)
      · rw [e1, e2, hkeV]; norm_num
      · rw [e2, hkeV]; norm_num
  obtain ⟨r, h1, _, h3⟩ := sumOver_nonneg (f := fun e => rNeShell Units.sample (shellRateER Units.sample I sampleHalo)
      (Detector.make "" expo "Electrons") 1 p xe.W xe.nucleus e) (l := xe.electrons) fun e he => by
    obtain ⟨r, h1, h2, _⟩ := shell_sum hU hbuilt he (fun E hE => hnn xe (by simp [initial]) e he E hE) (show 1 < 2 ^ 32 by norm_num)
    exact ⟨r, h1, h2⟩
  have hpos : 0 < r := h3 ⟨e₀, he₀, by
    obtain ⟨r, h1, _, h3⟩ := shell_sum hU hbuilt he₀ (fun E hE => hnn xe (by simp [initial]) e₀ he₀ E hE) (show 1 < 2 ^ 32 by norm_num)
    refine ⟨r, h1, h3 ⟨e₀.kMin, ?_, ?_, hrate e₀ he₀⟩⟩
    · obtain ⟨_, _, _, h⟩ := hmake e₀ he₀
      obtain ⟨_, rs, _, _, hrs, _, _, _, _, _, e1, _, _, _, nk, nq, hnk, _, _, _, e3, _⟩ := AtomicElectron.make_eq h
      have hnk2 : 0 < nk := by
        have h4 := (collect_eq_ok_length hrs).1
        obtain ⟨i, _, h5⟩ := forall₂_mem (collect_forall₂ hrs) (b := rs.getD 3 (0, 0, fun _ _ => 0)) (by
          rw [List.getD_eq_getElem?_getD, List.getElem?_eq_getElem (by rw [h4]; norm_num)]; exact List.getElem_mem _)
        unfold AtomicElectron.importResponse at h5
        simp only [vecGet] at h5
        rw [← hnk, ← Outcome.ok.inj h5]
        norm_num
      rw [e3, e1]
      exact List.mem_map.2 ⟨0, by simp [hnk2], by simp⟩
    · simp only [releaseProbability, Nat.choose_zero_right]
      positivity⟩
  have hmo : makeOne Units.sample (fun _ _ _ _ _ => 1) (fun _ => some [[1, 1], [1, 1]]) (some shippedTable) [] "" expo "Electrons" "Xe" =
      .ok (c, Detector.make "" expo "Electrons", initial [xe] [1]) := by
    unfold makeOne; rw [hm]; rfl
  refine ⟨_, _, c, (Detector.make "" expo "Electrons", initial [xe] [1]), p, r, hmo, ⟨p, [], makeSI_built one_pos hmk, by simp, rfl⟩, one_pos,
    ?_, hpos, hnn⟩
  · change sumOver _ (List.range 1) = _
    have h4 : ∀ i ∈ List.range 1, (do
        let a ← vecGet (initial [xe] [1]).atoms i
        let f ← vecGet (initial [xe] [1]).fractions i
        let r ← rNeAtom Units.sample (shellRateER Units.sample I sampleHalo) (Detector.make "" expo "Electrons") 1 p a
        .ok (f * r)) = .ok (1 * r) := fun i hi => by
      obtain rfl : i = 0 := by simpa using hi
      change (do
        let r ← rNeAtom Units.sample (shellRateER Units.sample I sampleHalo) (Detector.make "" expo "Electrons") 1 p xe
        .ok ((1 : ℝ) * r)) = _
      unfold rNeAtom
      rw [h1]; rfl
    rw [sumOver_ok h4]
    simp

/-- A xenon detector in the electron threshold mode with a positive signal. -/
theorem ionization_signal (hI : I.Exact) {T : Tools} : ∃ (s : Detector × IonizationDetector) (d' : Detector) (x' : IonizationDetector)
    (p : DMParticle) (t : ℝ), BuiltIonization Units.sample s ∧ useElectronThreshold s.1 s.2 1 0 = .ok (d', x') ∧
    Reachable Units.sample p ∧ 0 < p.mass ∧
    x'.signalsTotal Units.sample (shellRateER Units.sample I sampleHalo) T d' p sampleHalo = .ok t ∧ 0 < t := by
  obtain ⟨P, tables, c, s, p, r, h1, h2, h3, h4, h5, h6⟩ := ionization_positive hI 1
  have hmk : s.1.exposure = 1 ∧ s.2.fractions.length = s.2.atoms.length ∧ (∀ f ∈ s.2.fractions, 0 ≤ f) ∧
      ∀ a ∈ s.2.atoms, BuiltAtom Units.sample a := by
    unfold makeOne at h1
    obtain ⟨⟨c', a⟩, e1, e2⟩ := Outcome.bind_eq_ok.1 h1
    cases e2
    refine ⟨rfl, rfl, by simp [initial], fun b hb => ?_⟩
    obtain rfl : b = a := by simpa [initial] using hb
    exact ⟨_, _, _, _, _, _, e1⟩
  obtain ⟨g1, g2, g3, g4⟩ := hmk
  have hU : Units.sample.keV ≤ Units.sample.mElectron := by norm_num [Units.sample, Units.keV]
  obtain ⟨x', hx'⟩ : ∃ x', x' = { s.2 with usingElectronThreshold := true, usingS2Threshold := false, neThreshold := 1, neMax := 100 } :=
    ⟨_, rfl⟩
  have hr : ∀ ne, x'.rNe Units.sample (shellRateER Units.sample I sampleHalo) { s.1.initializePoisson with usingEnergyThreshold := false }
      ne p = s.2.rNe Units.sample (shellRateER Units.sample I sampleHalo) s.1 ne p := fun ne => by
    rw [hx']
    exact rNe_detector (fun E n e => (shellRates_detector _ _ E p n e rfl).1) ne
  obtain ⟨t, ht1, _, ht3⟩ := sumOver_nonneg (f := fun ne => do
      let r ← x'.rNe Units.sample (shellRateER Units.sample I sampleHalo) { s.1.initializePoisson with usingEnergyThreshold := false } ne p
      .ok (s.1.exposure * r)) (l := List.range' 1 100) fun ne hne => by
    have hne : ne < 2 ^ 32 := by have := List.mem_range'_1.1 hne; omega
    obtain ⟨r, e1, e2⟩ := C68_spectrum hU g2 g3 g4 h6 hne
    rw [hr, e1]
    exact ⟨_, rfl, by rw [g1]; positivity⟩
  refine ⟨s, _, x', p, t, .inl ⟨_, _, _, _, _, _, _, _, _, h1⟩, by rw [hx']; rfl, h2, h3, ?_, ht3 ⟨1, by simp, s.1.exposure * r, ?_, ?_⟩⟩
  · unfold signalsTotal
    rw [if_neg (by simp [Detector.initializePoisson]), if_pos (by rw [hx']), ← ht1]
    rw [hx']
    rfl
  · rw [hr, h4]; rfl
  · rw [g1]; linarith

/-- C50 fails on a concrete history: an electron threshold and then an energy threshold. The particle is below `Minimum_DM_Mass` and
gives a positive signal. -/
theorem C50_fails_ionization (hI : I.Exact) {T : Tools} : ∃ (s : Detector × IonizationDetector) (p : DMParticle) (m₀ t : ℝ),
    ReachableIonization Units.sample s ∧ Reachable Units.sample p ∧ s.2.minimumDMMass s.1 sampleHalo = .ok m₀ ∧ p.mass < m₀ ∧
    s.2.signalsTotal Units.sample (shellRateER Units.sample I sampleHalo) T s.1 p sampleHalo = .ok t ∧ 0 < t := by
  obtain ⟨s, d', x', p, t, h1, h2, h3, h4, h5, h6⟩ := ionization_signal hI (T := T)
  obtain ⟨b₀, d'', e1, ⟨m₀, e2, e3⟩, e4⟩ := C50_fails_stale_threshold h2 (show sampleHalo.vMax ≠ 0 from one_ne_zero)
    (fun d d' E p n e hd => (shellRates_detector d d' E p n e hd).1) h5
  refine ⟨(d'', x'), p, m₀, t, ⟨s, [.useElectronThreshold 1 0, .base (.useEnergyThreshold b₀ (b₀ + 1))], h1, ?_⟩, h3, e2, e3, e4, h6⟩
  simp only [run, step, Detector.step]
  rw [h2, Outcome.bind_ok]
  dsimp only
  rw [e1]
  rfl

end IonizationDetector

end Obscura
