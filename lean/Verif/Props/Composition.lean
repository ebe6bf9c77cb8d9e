import Verif.Spec.Composition
import Verif.Lemmas.Composition

/-!
# C90 — the composition of a target is neither ordered nor unique in its notation
-/

namespace Obscura

open Spec NuclearDetector

variable {U : Units}

theorem make_pairs (label : String) (expo : ℝ) (l : List (Nucleus × ℝ)) :
    open Classical in
    NuclearDetector.make label expo (l.map Prod.fst) (l.map Prod.snd) =
      if 1 < (l.map Prod.snd).sum ∧ (l.map fun y => y.2 * y.1.averageMass).sum = 0 then .nonfinite
      else .ok (Detector.make label expo "Nuclei", compound (l.map fun x => (x.1, share l x)) 0 none) := by
  classical
  unfold NuclearDetector.make
  rw [massFractions_pairs]
  split_ifs
  · rfl
  · simp [compound, Function.comp_def]

/-- It is enough to compare compounds. -/
theorem sameTarget {l l' : List (Nucleus × ℝ)}
    (hm : ∀ iso, iso ∈ (l.map Prod.fst).flatMap Nucleus.isotopes ↔ iso ∈ (l'.map Prod.fst).flatMap Nucleus.isotopes)
    (hr : ∀ (R : Nucleus → Outcome ℝ) (k : ℝ), (sumOver (fun x : Nucleus × ℝ => do
        let r ← R x.1
        .ok (k * x.2 * r)) l).valueOr0 = (sumOver (fun x : Nucleus × ℝ => do
        let r ← R x.1
        .ok (k * x.2 * r)) l').valueOr0) :
    SameTarget U (compound l 0 none) (compound l' 0 none) := by
  intro res
  refine ⟨fun T h => ?_, fun f T h => ?_⟩
  · exact compound_class T h res none hm fun k ER p => hr (dRdERNucleus U T.integrate ER p h) k
  · exact compound_class T h res (some f) hm fun k ER p => hr (dRdERNucleus U T.integrate ER p h) k

/-- C90 (order). Naming the elements of a compound, with their ratios or shares, in another order gives a detector that cannot be told from the first;
what is rejected in one order is rejected in the other. -/
theorem C90_order {l l' : List (Nucleus × ℝ)} (h : l.Perm l') (label : String) (expo : ℝ) :
    (∃ d nd nd', NuclearDetector.make label expo (l.map Prod.fst) (l.map Prod.snd) = .ok (d, nd) ∧
      NuclearDetector.make label expo (l'.map Prod.fst) (l'.map Prod.snd) = .ok (d, nd') ∧ SameTarget U nd nd') ∨
    (NuclearDetector.make label expo (l.map Prod.fst) (l.map Prod.snd) = .nonfinite ∧
      NuclearDetector.make label expo (l'.map Prod.fst) (l'.map Prod.snd) = .nonfinite) := by
  classical
  rw [make_pairs, make_pairs, ← (h.map Prod.snd).sum_eq, ← (h.map fun y : Nucleus × ℝ => y.2 * y.1.averageMass).sum_eq, ← share_perm h]
  split_ifs with h0
  · exact .inr ⟨rfl, rfl⟩
  · refine .inl ⟨_, _, _, rfl, rfl, ?_⟩
    have hp : (l.map fun x => (x.1, share l x)).Perm (l'.map fun x => (x.1, share l x)) := h.map _
    refine sameTarget (fun iso => ?_) fun R k => sumOver_perm hp
    exact ((hp.map _).flatMap_right _).mem_iff

/-- C90 (repetition). An element may be named twice: its ratios or shares are added. -/
theorem C90_repetition (n : Nucleus) (a b : ℝ) (l : List (Nucleus × ℝ)) (label : String) (expo : ℝ) :
    (∃ d nd nd', NuclearDetector.make label expo (n :: n :: l.map Prod.fst) (a :: b :: l.map Prod.snd) = .ok (d, nd) ∧
      NuclearDetector.make label expo (n :: l.map Prod.fst) ((a + b) :: l.map Prod.snd) = .ok (d, nd') ∧ SameTarget U nd nd') ∨
    (NuclearDetector.make label expo (n :: n :: l.map Prod.fst) (a :: b :: l.map Prod.snd) = .nonfinite ∧
      NuclearDetector.make label expo (n :: l.map Prod.fst) ((a + b) :: l.map Prod.snd) = .nonfinite) := by
  classical
  have e1 := make_pairs label expo ((n, a) :: (n, b) :: l)
  have e2 := make_pairs label expo ((n, a + b) :: l)
  have s1 : (((n, a) :: (n, b) :: l).map Prod.snd).sum = (((n, a + b) :: l).map Prod.snd).sum := by
    simp only [List.map_cons, List.sum_cons]; ring
  have s2 : (((n, a) :: (n, b) :: l).map fun y => y.2 * y.1.averageMass).sum = (((n, a + b) :: l).map fun y => y.2 * y.1.averageMass).sum := by
    simp only [List.map_cons, List.sum_cons]; ring
  rw [s1, s2] at e1
  simp only [List.map_cons] at e1 e2
  have hsh : share ((n, a) :: (n, b) :: l) = share ((n, a + b) :: l) := by
    funext x
    rw [share, share, s1, s2]
  have hadd : share ((n, a + b) :: l) (n, a) + share ((n, a + b) :: l) (n, b) = share ((n, a + b) :: l) (n, a + b) := by
    unfold share
    split_ifs
    · rfl
    · simp only; ring
  rw [e1, e2]
  split_ifs with h0
  · exact .inr ⟨rfl, rfl⟩
  · refine .inl ⟨_, _, _, rfl, rfl, ?_⟩
    rw [hsh, ← hadd]
    generalize share ((n, a + b) :: l) = s
    refine sameTarget (fun iso => by simp) fun R k => ?_
    unfold sumOver
    simp only [collect]
    cases R n with
    | ok r =>
      cases collect (fun x : Nucleus × ℝ => R x.1 >>= fun r => Outcome.ok (k * x.2 * r)) (l.map fun x => (x.1, s x)) with
      | ok xs =>
        simp only [Outcome.bind_ok, Outcome.valueOr0, foldl_add_eq_sum, List.sum_cons]
        ring
      | _ => rfl
    | _ => rfl

/-- C90 (scale). Ratios of numbers of atoms may be given in any unit, as long as they add up to more than one. -/
theorem C90_scale {l : List (Nucleus × ℝ)} {k : ℝ} (hk : k ≠ 0) (h1 : 1 < (l.map Prod.snd).sum) (h2 : 1 < (l.map fun x => k * x.2).sum)
    (label : String) (expo : ℝ) :
    NuclearDetector.make label expo (l.map Prod.fst) (l.map fun x => k * x.2) = NuclearDetector.make label expo (l.map Prod.fst) (l.map Prod.snd) := by
  classical
  have e := make_pairs label expo (l.map fun x => (x.1, k * x.2))
  have s2 : ((l.map fun x : Nucleus × ℝ => (x.1, k * x.2)).map fun y => y.2 * y.1.averageMass).sum =
      k * (l.map fun y => y.2 * y.1.averageMass).sum := by
    rw [← List.sum_map_mul_left]
    simp only [List.map_map, Function.comp_def, mul_assoc]
  have s1 : ((l.map fun x : Nucleus × ℝ => (x.1, k * x.2)).map Prod.snd) = l.map fun x => k * x.2 := by simp [Function.comp_def]
  have s3 : ((l.map fun x : Nucleus × ℝ => (x.1, k * x.2)).map Prod.fst) = l.map Prod.fst := by simp [Function.comp_def]
  rw [s1, s2, s3] at e
  rw [e, make_pairs]
  by_cases h0 : (l.map fun y => y.2 * y.1.averageMass).sum = 0
  · rw [if_pos ⟨h2, by rw [h0, mul_zero]⟩, if_pos ⟨h1, h0⟩]
  · have hk0 : ¬ k * (l.map fun y => y.2 * y.1.averageMass).sum = 0 := mul_ne_zero hk h0
    rw [if_neg fun hh => hk0 hh.2, if_neg fun hh => h0 hh.2]
    congr 3
    rw [List.map_map]
    refine List.map_congr_left fun x _ => ?_
    simp only [Function.comp_apply, share]
    rw [s1, s2, if_neg (not_le.2 h1), if_neg (not_le.2 h2)]
    congr 1
    field_simp

/-- C90 (no ratios). Without ratios the elements are taken in equal numbers. -/
theorem C90_no_ratios {nuclei : List Nucleus} (hm : ∀ n ∈ nuclei, 0 < n.averageMass) (label : String) (expo : ℝ) :
    NuclearDetector.make label expo nuclei [] = NuclearDetector.make label expo nuclei (nuclei.map fun _ => 1) := by
  classical
  have e := make_pairs label expo (nuclei.map fun n => (n, (1 : ℝ)))
  simp only [List.map_map, Function.comp_def, List.map_id', one_mul] at e
  rw [e]
  have hpos : nuclei ≠ [] → 0 < (nuclei.map fun n => n.averageMass).sum := fun hne =>
    List.sum_pos _ (by simpa using hm) (by simpa using hne)
  have h1 : massFractions nuclei [] = .ok (nuclei.map fun n => n.averageMass / (nuclei.map fun n => n.averageMass).sum) := by
    unfold massFractions
    rw [if_pos (.inl rfl), collect_range nuclei _ fun n => .ok n.averageMass]
    · rw [collect_ok (g := fun n : Nucleus => n.averageMass) fun _ _ => rfl, Outcome.bind_ok, foldl_add_eq_sum, collect_of_map]
      refine collect_ok fun n hn => fdiv_ok (hpos ?_).ne'
      rintro rfl
      simp at hn
    · intro i hi
      rw [vecGet_lt hi]
      simp
  rw [if_neg]
  · unfold NuclearDetector.make
    rw [h1, Outcome.bind_ok]
    unfold compound
    simp only [List.map_map, Function.comp_def, List.map_id', Option.isSome_none, Option.toList_none]
    have hl : (nuclei.map fun n => n.averageMass / (nuclei.map fun n => n.averageMass).sum) =
        nuclei.map fun x => share (nuclei.map fun n => (n, (1 : ℝ))) (x, 1) := by
      refine List.map_congr_left fun n hn => ?_
      simp only [share, List.map_map, Function.comp_def, one_mul]
      split_ifs with hs
      · have hlen : nuclei.length ≤ 1 := by simpa using hs
        have hone : nuclei = [n] := by
          match nuclei, hn, hlen with
          | [a], hn, _ => rw [List.mem_singleton.1 hn]
        have := (hm n hn).ne'
        rw [hone]
        simp [this]
      · rfl
    rw [hl]
  · rintro ⟨h2, h3⟩
    have : nuclei ≠ [] := by rintro rfl; norm_num at h2
    exact (hpos this).ne' h3

/-- C90 (share zero). An element with the share zero does not change the spectrum, provided its own rates are finite. -/
theorem C90_zero_share_partial {n : Nucleus} {l : List (Nucleus × ℝ)} {label : String} {expo : ℝ} {d : Detector} {a b : NuclearDetector}
    (ha : NuclearDetector.make label expo (l.map Prod.fst) (l.map Prod.snd) = .ok (d, a))
    (hb : NuclearDetector.make label expo (n :: l.map Prod.fst) (0 :: l.map Prod.snd) = .ok (d, b))
    {T : Tools} {h : Distribution} {p : DMParticle} (hr : ∀ ER, ∃ r, dRdERNucleus U T.integrate ER p h n = .ok r) (res E : ℝ) (d' : Detector) :
    ((a.setResolution res).toClass U T h).dRdE d' E p = ((b.setResolution res).toClass U T h).dRdE d' E p := by
  classical
  have e2 := make_pairs label expo ((n, 0) :: l)
  have s1 : (((n, (0 : ℝ)) :: l).map Prod.snd).sum = (l.map Prod.snd).sum := by simp
  have s2 : (((n, (0 : ℝ)) :: l).map fun y => y.2 * y.1.averageMass).sum = (l.map fun y => y.2 * y.1.averageMass).sum := by simp
  have hsh : share ((n, (0 : ℝ)) :: l) = share l := by
    funext x
    rw [share, share, s1, s2]
  rw [s1, s2, hsh] at e2
  simp only [List.map_cons] at e2
  rw [make_pairs] at ha
  rw [e2] at hb
  split_ifs at ha hb
  cases ha
  cases hb
  have h0 : share l (n, 0) = 0 := by
    unfold share
    split_ifs <;> simp
  rw [h0]
  generalize l.map (fun x => (x.1, share l x)) = l
  have key : ∀ E ER, (compound l res none).theoryRate U T.integrate d' E ER p h =
      (compound ((n, 0) :: l) res none).theoryRate U T.integrate d' E ER p h := by
    intro E ER
    rw [theoryRate_compound, theoryRate_compound]
    obtain ⟨r, hr⟩ := hr ER
    unfold sumOver
    simp only [collect, hr, Outcome.bind_ok]
    cases collect (fun x : Nucleus × ℝ => dRdERNucleus U T.integrate ER p h x.1 >>= fun r =>
      Outcome.ok (Option.elim none 1 (fun f : ℝ → ℝ => f E) * d'.flatEfficiency * x.2 * r)) l <;> simp
  change ((compound l res none).dRdE U T.integrate d' E p h).valueOr0 = ((compound ((n, 0) :: l) res none).dRdE U T.integrate d' E p h).valueOr0
  unfold dRdE
  simp only [key]
  rfl

/-- C90 fails for the share zero: an element that is not contained in the target still lowers the smallest mass the detector claims to see. With the
threshold at a half `m v²`, a pure target of mass `4 m` reaches down to `4 m / 3`; naming an element of mass `m` with the share zero makes it `m`. -/
theorem C90_fails_zero_share {L H : Isotope} {m : ℝ} (hm : 0 < m) (hL : L.mass = m) (hH : H.mass = 4 * m) {h : Distribution} (hv : 0 < h.vMax)
    {T : Tools} {p : DMParticle} {s s' : ℝ} (hs : 0 < s) (hs' : 0 < s') (h1 : p.sigmaTotalNucleus U T.integrate L h.vMax = .ok s)
    (h2 : p.sigmaTotalNucleus U T.integrate H h.vMax = .ok s') {nL nH : Nucleus} (hnL : nL.isotopes = [L]) (hnH : nH.isotopes = [H])
    (label : String) (expo : ℝ) :
    ∃ d a b d', NuclearDetector.make label expo [nH] [1] = .ok (d, a) ∧ NuclearDetector.make label expo [nH, nL] [1, 0] = .ok (d, b) ∧
      d.useEnergyThreshold (m * h.vMax ^ 2 / 2) (m * h.vMax ^ 2) = .ok d' ∧
      (a.toClass U T h).minimumDMMass d' p = .ok (4 * m / 3) ∧ (b.toClass U T h).minimumDMMass d' p = .ok m := by
  have hE : m * h.vMax ^ 2 / 2 ≠ 0 := by positivity
  have mass : ∀ {iso : Isotope} {k : ℝ}, 1 < k → iso.mass = k ^ 2 / 4 * m → minimumMassIsotope (m * h.vMax ^ 2 / 2) h.vMax iso = .ok (k ^ 2 / 4 * m / (k - 1)) := by
    intro iso k hk hi
    unfold minimumMassIsotope
    rw [if_neg fun hh => hE hh.1, fdiv_ok hE, Outcome.bind_ok, hi]
    have e : 2 * (k ^ 2 / 4 * m) / (m * h.vMax ^ 2 / 2) = (k / h.vMax) ^ 2 := by
      field_simp
      ring
    rw [e, fsqrt_ok (by positivity), Outcome.bind_ok, Real.sqrt_sq (by positivity), div_mul_cancel₀ _ hv.ne', fdiv_ok (by linarith)]
  have mL := mass (iso := L) (k := 2) (by norm_num) (by rw [hL]; ring)
  have mH := mass (iso := H) (k := 4) (by norm_num) (by rw [hH]; ring)
  refine ⟨Detector.make label expo "Nuclei", ⟨[nH], [1], 0, false, []⟩, ⟨[nH, nL], [1, 0], 0, false, []⟩,
    { (Detector.make label expo "Nuclei").initializePoisson with
      usingEnergyThreshold := true, energyThreshold := m * h.vMax ^ 2 / 2, energyMax := m * h.vMax ^ 2 }, ?_, ?_, ?_, ?_, ?_⟩
  · unfold NuclearDetector.make massFractions
    rw [if_neg (by rintro (hh | hh); · simp at hh
                   · norm_num at hh)]
    rfl
  · unfold NuclearDetector.make massFractions
    rw [if_neg (by rintro (hh | hh); · simp at hh
                   · norm_num at hh)]
    rfl
  · unfold Detector.useEnergyThreshold
    rw [if_neg (by nlinarith [sq_nonneg h.vMax, mul_pos hm (sq_pos_of_pos hv)])]
  · change (massLoop U T.integrate p (m * h.vMax ^ 2 / 2 - 2 * 0) h.vMax (nH.isotopes ++ []) >>= minElement) = _
    rw [hnH, mul_zero, sub_zero]
    simp only [List.cons_append, List.nil_append, massLoop, h2, Outcome.bind_ok, if_pos hs', mH, minElement, List.foldl_nil]
    congr 1
    ring
  · change (massLoop U T.integrate p (m * h.vMax ^ 2 / 2 - 2 * 0) h.vMax (nH.isotopes ++ (nL.isotopes ++ [])) >>= minElement) = _
    rw [hnH, hnL, mul_zero, sub_zero]
    simp only [List.cons_append, List.nil_append, massLoop, h1, h2, Outcome.bind_ok, if_pos hs, if_pos hs', mH, mL, minElement, List.foldl_cons,
      List.foldl_nil]
    congr 1
    rw [min_eq_right] <;> nlinarith

/-! ### Non-vacuity -/

/-- Water, with the elements in either order, in ratios 2 : 1 or 4 : 2. -/
example {H O : Nucleus} (hH : 0 < H.averageMass) (hO : 0 < O.averageMass) :
    ∃ d nd nd', NuclearDetector.make "water" 1 [H, O] [2, 1] = .ok (d, nd) ∧ NuclearDetector.make "water" 1 [O, H] [1, 2] = .ok (d, nd') ∧
      SameTarget U nd nd' ∧ NuclearDetector.make "water" 1 [H, O] [4, 2] = .ok (d, nd) := by
  classical
  have e := make_pairs "water" 1 [(H, 2), (O, 1)]
  rw [if_neg (by
    rintro ⟨-, h⟩
    simp only [List.map_cons, List.map_nil, List.sum_cons, List.sum_nil] at h
    linarith)] at e
  rcases C90_order (U := U) (List.Perm.swap (O, 1) (H, 2) []) "water" 1 with ⟨d, nd, nd', h1, h2, h3⟩ | ⟨h1, -⟩
  · refine ⟨d, nd, nd', h1, h2, h3, ?_⟩
    have h4 := C90_scale (l := [(H, 2), (O, 1)]) (k := 2) (by norm_num) (by norm_num) (by norm_num) "water" 1
    norm_num at h4
    exact h4.trans h1
  · simp only [List.map_cons, List.map_nil] at h1 e
    rw [e] at h1
    cases h1

/-- Where the halo integral is finite, so are all rates. -/
theorem rate_finite (I : Integrator) (p : DMParticle) {h : Distribution} (he : ∀ v, ∃ e, h.eta v = .ok e) (ER : ℝ) (n : Nucleus) :
    ∃ r, dRdERNucleus U I ER p h n = .ok r := by
  have key : ∀ iso, ∃ r, dRdERIsotope U I ER p h iso = .ok r := by
    intro iso
    unfold dRdERIsotope
    simp only
    split_ifs
    · exact ⟨_, rfl⟩
    · obtain ⟨e, he⟩ := he (vMinimalNucleus ER p.mass iso.mass)
      exact ⟨_, by rw [he]; rfl⟩
    · exact ⟨_, rfl⟩
  choose R hR using key
  exact ⟨_, sumOver_ok fun iso _ => by rw [hR iso, Outcome.bind_ok]⟩

/-- A light particle, and targets of one and of four nucleons. -/
example (T : Tools) (h : Distribution) :
    ∃ (L H : Isotope) (p : DMParticle) (s s' : ℝ), L.mass = 1 ∧ H.mass = 4 * 1 ∧ 0 < s ∧ 0 < s' ∧ p.sigmaTotalNucleus U T.integrate L h.vMax = .ok s ∧
      p.sigmaTotalNucleus U T.integrate H h.vMax = .ok s' := by
  refine ⟨⟨1, 1, 1, 0, 0, 0, 1⟩, ⟨2, 4, 1, 0, 0, 0, 4⟩,
    { DMParticle.standard U 1 1 (.SI .contact (U.aEM * U.mElectron) 0) with fp := 1, fn := 1, lowMass := true },
    (1 / 2) ^ 2 / Real.pi * 1 ^ 2, (4 / 5) ^ 2 / Real.pi * 4 ^ 2, rfl, by norm_num, by have := Real.pi_pos; positivity,
    by have := Real.pi_pos; positivity, ?_, ?_⟩ <;>
  · simp only [DMParticle.sigmaTotalNucleus, DMParticle.standard, reducedMass, Isotope.neutrons, reduceCtorEq, if_false, show usub32 1 1 = 0 by decide,
      show usub32 4 2 = 2 by decide]
    norm_num

end Obscura
