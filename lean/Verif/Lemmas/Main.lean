import Verif.Model.Main
import Verif.Spec.Main
import Verif.Lemmas.Configured
import Verif.Props.Limits
import Verif.Props.NuclearDetector
import Verif.Props.IonizationRates
import Verif.Props.Crystal
import Std.Data.String.ToInt

/-!
# Helper lemmas: the program
-/

namespace Obscura

open Spec DMParticle FileSystem

/-! ## Numbers -/

theorem cround_near (x : ℝ) : |x - cround x| ≤ 1 / 2 := by
  unfold cround
  split_ifs with h
  · have h1 := Int.floor_le (x + 1 / 2)
    have h2 := Int.lt_floor_add_one (x + 1 / 2)
    rw [abs_le]; constructor <;> linarith
  · have h1 := Int.le_ceil (x - 1 / 2)
    have h2 := Int.ceil_lt_add_one (x - 1 / 2)
    rw [abs_le]; constructor <;> linarith

theorem toIntConv_int {k : ℤ} : toIntConv (k : ℝ) = if -2 ^ 31 ≤ k ∧ k < 2 ^ 31 then .ok k else .ub := by
  unfold toIntConv
  have e1 : (k : ℝ) ≤ -2 ^ 31 - 1 ↔ k ≤ -2 ^ 31 - 1 := by exact_mod_cast Iff.rfl
  have e2 : (2 : ℝ) ^ 31 ≤ k ↔ 2 ^ 31 ≤ k := by exact_mod_cast Iff.rfl
  by_cases h : -2 ^ 31 ≤ k ∧ k < 2 ^ 31
  · rw [if_pos h, if_neg]
    · split_ifs <;> simp
    · rw [e1, e2]; omega
  · rw [if_neg h, if_pos]
    rw [e1, e2]; omega

theorem logSpace_grid {a b : ℝ} (ha : 0 < a) (hb : 0 < b) {n : ℕ} (hn : 2 ≤ n) : GeometricGrid (logSpace a b n) a b n := by
  have hn' : (1 : ℝ) ≤ (n : ℝ) - 1 := by
    have : (2 : ℝ) ≤ n := by exact_mod_cast hn
    linarith
  have hget : ∀ i : ℕ, (logSpace a b n)[i]? = if i < n then some (a * (b / a) ^ ((i : ℝ) / ((n : ℝ) - 1))) else none := by
    intro i
    unfold logSpace
    rw [List.getElem?_map]
    split_ifs with h
    · rw [List.getElem?_range h]; rfl
    · rw [List.getElem?_eq_none (by simpa using h)]; rfl
  have hlen : (logSpace a b n).length = n := by simp [logSpace]
  refine ⟨hlen, ?_, ?_, (b / a) ^ (1 / ((n : ℝ) - 1)), by positivity, ?_⟩
  · rw [List.head?_eq_getElem?, hget, if_pos (by omega)]; simp
  · rw [List.getLast?_eq_getElem?, hlen, hget, if_pos (by omega)]
    rw [Nat.cast_sub (by omega), Nat.cast_one, div_self (by linarith), Real.rpow_one]
    congr 1; field_simp
  · intro i x y hx hy
    rw [hget] at hx hy
    split_ifs at hx hy with h1 h2
    cases hx; cases hy
    have h3 : ((i + 1 : ℕ) : ℝ) / ((n : ℝ) - 1) = 1 / ((n : ℝ) - 1) + i / ((n : ℝ) - 1) := by push_cast; ring
    rw [h3, Real.rpow_add (by positivity)]; ring

theorem logSpace_mem_pos {a b : ℝ} (ha : 0 < a) (hb : 0 < b) {n : ℕ} {m : ℝ} (h : m ∈ logSpace a b n) : 0 < m := by
  unfold logSpace at h
  obtain ⟨i, -, rfl⟩ := List.mem_map.1 h
  positivity

/-! ## Names -/

theorem repr_plain (k : ℤ) : '/' ∉ k.repr.toList := by
  have hd : ∀ n : ℕ, '/' ∉ n.repr.toList := by
    intro n h
    have : '/' ∈ Nat.toDigits 10 n := by simpa [Nat.repr] using h
    have := Nat.isDigit_of_mem_toDigits (by decide) (by decide) this
    exact absurd this (by decide)
  cases k with
  | ofNat n => exact hd n
  | negSucc n =>
    simp only [Int.repr, String.toList_append, List.mem_append, not_or]
    exact ⟨by decide, hd _⟩

/-- The last component of the name of the file. -/
def constraintsName (k : ℤ) : Name := ("DD_Constraints_" ++ toString k ++ ".txt").toList

theorem constraintsName_eq (k : ℤ) : constraintsName k = "DD_Constraints_".toList ++ k.repr.toList ++ ".txt".toList := by
  simp only [constraintsName, String.toList_append]; rfl

theorem constraintsName_plain (k : ℤ) : PlainName (constraintsName k) := by
  rw [constraintsName_eq]
  refine ⟨by simp, ?_, ?_, ?_⟩
  · simp only [List.mem_append, not_or]
    exact ⟨⟨by decide, repr_plain k⟩, by decide⟩
  · intro h; have := congrArg List.length h; simp at this
  · intro h; have := congrArg List.length h; simp at this

theorem constraintsName_inj {j k : ℤ} (h : constraintsName j = constraintsName k) : j = k := by
  rw [constraintsName_eq, constraintsName_eq, List.append_assoc, List.append_assoc, List.append_cancel_left_eq,
    List.append_cancel_right_eq] at h
  exact Int.repr_injective (String.ext h)

theorem locate_limitsFile {E : Platform} {fs g : FileSystem} {top : List Name} (h : TopAt E.R fs top) {ID : Name} (hID : PlainName ID)
    (hm : ∀ q, fs.isDir q = true → g.isDir q = true) (k : ℤ) :
    g.locate E.R.cwd (Program.limitsFile E ID k) =
      if g (resultsPlace top) = some .dir ∧ g (runPlace top ID) = some .dir then some (constraintsPlace top ID k) else none := by
  obtain ⟨t, ht, hw⟩ := h
  have hw' : g.walk (start E.R.cwd (t ++ ['/'])) (t.splitOn '/') = some top := by rw [← ht]; exact walk_mono hm hw
  have := locate_child (fs := g) (cwd := E.R.cwd) (t := t ++ '/' :: "results".toList ++ '/' :: ID) (constraintsName_plain k)
  rw [List.splitOn_append_cons_self, List.splitOn_append_cons_self, List.splitOn_eq_singleton results_plain.2.1,
    List.splitOn_eq_singleton hID.2.1, walk_append, walk_append] at this
  rw [show t ++ '/' :: "results".toList ++ '/' :: ID ++ ['/'] = t ++ '/' :: ("results".toList ++ '/' :: ID ++ ['/']) by simp,
    start_append, hw'] at this
  simp only [Option.bind_some, walk_plain results_plain] at this
  have e1 : "results/".toList = "results".toList ++ ['/'] := by decide
  have e2 : "/DD_Constraints_".toList = '/' :: "DD_Constraints_".toList := by decide
  have e3 : Program.limitsFile E ID k = t ++ '/' :: "results".toList ++ '/' :: ID ++ '/' :: constraintsName k := by
    unfold Program.limitsFile
    rw [ht, e1, e2, constraintsName_eq]; simp
  rw [e3, this]
  by_cases hd : g (resultsPlace top) = some .dir
  · rw [if_pos (isDir_cons.2 hd), Option.bind_some, walk_plain hID]
    by_cases hr : g (runPlace top ID) = some .dir
    · rw [if_pos (show g.isDir (ID :: "results".toList :: top) = true from isDir_cons.2 hr), if_pos ⟨hd, hr⟩]; rfl
    · rw [if_neg (show ¬ g.isDir (ID :: "results".toList :: top) = true from fun h => hr (isDir_cons.1 h)),
        if_neg (fun h => hr h.2)]; rfl
  · rw [if_neg (fun h => hd (isDir_cons.1 h)), if_neg (fun h => hd h.1)]; rfl

/-! ## Limits -/

variable {U : Units} {T : Tools}

theorem get_withMass {p : DMParticle} (hg : Good p) {m : ℝ} (hm : 0 < m) (t : String) :
    (withMass U p m).getInteractionParameter U t = p.getInteractionParameter U t := by
  obtain ⟨h1, h2⟩ := withMass_sigma (U := U) hg.base hg.rel hm
  obtain ⟨x, y, hs⟩ := withMass_shape (U := U) p m
  unfold getInteractionParameter
  rw [h1, h2, hs]
  rfl

theorem regular_withMass {p : DMParticle} (h : Regular U p) (hf : p.fixedRelation = true) {m : ℝ} (hm : 0 < m) :
    Regular U (withMass U p m) ∧ (withMass U p m).fixedRelation = true := by
  have hg := h.good
  have hfix : (withMass U p m).fixedRelation = true := by
    obtain ⟨x, y, hs⟩ := withMass_shape (U := U) p m; rw [hs]; exact hf
  refine ⟨.inl ⟨?_, hfix⟩, hfix⟩
  rcases h with ⟨⟨r, p₀, ops, hb, hv, hc, hr, hreq⟩, -⟩ | ⟨-, h, -⟩
  swap
  · rw [hf] at h; cases h
  have hstep := setMass_ok (U := U) hg.base hm
  refine ⟨_, p₀, ops ++ [.setMass m], hb, ?_, ?_, ?_, rfl⟩
  · intro op hop
    rcases List.mem_append.1 hop with h | h
    · exact hv op h
    · simp only [List.mem_cons, List.not_mem_nil, or_false] at h
      subst h
      simpa [ValidOp] using hm
  · clear hb hv hreq
    induction ops generalizing p₀ with
    | nil => exact ⟨fun h => by simp [requestedBy] at h, fun _ _ => trivial⟩
    | cons o ops ih =>
      obtain ⟨e, he, hr⟩ := Outcome.bind_eq_ok.1 hr
      refine ⟨hc.1, fun p' hp' => ?_⟩
      rw [he] at hp'; cases hp'
      exact ih e (hc.2 e he) hr
  · clear hb hv hreq hc
    induction ops generalizing p₀ with
    | nil => cases hr; simp [DMParticle.run, DMParticle.step, hstep]
    | cons o ops ih =>
      obtain ⟨e, he, hr⟩ := Outcome.bind_eq_ok.1 hr
      show (do let e ← DMParticle.step U p₀ o; DMParticle.run U e _) = _
      rw [he, Outcome.bind_ok]
      exact ih _ hr

/-- The signals of every detector that a configuration gives are proportional to the cross section on its targets. -/
theorem Typed.linear {D : AnyDetector} (hD : Typed D) (hI : T.integrate.Homogeneous)
    (hP : ∀ k xs (ys : List ℝ) x y, T.interpolationIntegral xs (ys.map fun z => k * z) x y = k * T.interpolationIntegral xs ys x y)
    (h : Distribution) : LinearClass U (D.toClass U T h) D.base.targets := by
  obtain ⟨-, ht⟩ := hD
  cases D with
  | nuclear d x => rw [show (AnyDetector.nuclear d x).base.targets = "Nuclei" from ht]; exact C40_linear hI hP
  | electronRecoil d x =>
    rw [show (AnyDetector.electronRecoil d x).base.targets = "Electrons" from ht]; exact (IonizationDetector.C64_ionization hI hI).1
  | migdal d x => rw [show (AnyDetector.migdal d x).base.targets = "Nuclei" from ht]; exact (IonizationDetector.C64_ionization hI hI).2
  | crystal d x => rw [show (AnyDetector.crystal d x).base.targets = "Electrons" from ht]; exact CrystalDetector.C64_crystal hI

/-- A positive limit at a mass is correct. -/
theorem limitAt_correct {C : DetectorClass} {d : Detector} {p : DMParticle} {cert c0 m x : ℝ} (hr : ReachableDetector d)
    (hp : Regular U p) (hf : p.fixedRelation = true) (hC : LinearClass U C d.targets) (hR : T.findRoot.Exact)
    (hc0 : p.getInteractionParameter U d.targets = .ok c0) (h0 : 0 < c0) (hd : d.analysis = .poisson) (hm : 0 < m)
    (hs0 : ∀ p' s, p.setMass U m = .ok p' → C.signalsTotal d p' = .ok s → 0 ≤ s) (hb : 0 ≤ d.background) (hbkg : probAtMost d.background d.observed ≠ 1 - cert)
    (h : upperLimitAt U T C d p cert m = .ok x) :
    ∃ p', p.setMass U m = .ok p' ∧ CorrectLimit U T C d p' cert x := by
  obtain ⟨p', h1, h⟩ := Outcome.bind_eq_ok.1 h
  obtain ⟨⟨d1, q, y⟩, h2, h⟩ := Outcome.bind_eq_ok.1 h
  cases h
  refine ⟨p', h1, ?_⟩
  have e := setMass_ok (U := U) hp.good.base hm
  rw [h1] at e
  cases e
  obtain ⟨hp', hf'⟩ := regular_withMass (U := U) hp hf hm
  have hc0' := (get_withMass (U := U) hp.good hm d.targets).trans hc0
  have hs : ∃ s, C.signalsTotal d (withMass U p m) = .ok s := by
    have h2' := h2
    unfold Detector.upperLimit at h2'
    rw [hc0', Outcome.bind_ok] at h2'
    obtain ⟨d2, h3, -⟩ := Outcome.bind_eq_ok.1 h2'
    unfold Detector.setFiducial at h3
    rw [hd] at h3
    obtain ⟨s, h4, -⟩ := Outcome.bind_eq_ok.1 h3
    rw [← hd] at h4
    rw [(hC.config d _ true c0 d.fiducialSignals d.fiducialSpectrum).1] at h4
    exact ⟨s, h4⟩
  obtain ⟨s, hs⟩ := hs
  obtain ⟨p'', x', h3, h4⟩ := C30_poisson_partial (cert := cert) hr hp' (.inl hf') hC hR hc0' h0 hd hs (hs0 _ s h1 hs) hb (.inr hbkg)
  rw [h2] at h3
  cases h3
  exact h4

theorem curveLoop_defined {C : DetectorClass} {d : Detector} {p : DMParticle} {c0 cert lowest : ℝ} (hi : d.Sound) (hg : Good p)
    (hC : LinearClass U C d.targets) (hc0 : p.getInteractionParameter U d.targets = .ok c0) (h0 : c0 ≠ 0) (hd : d.analysis = .poisson)
    (hs : ∀ m p', 0 < m → p.setMass U m = .ok p' → ∃ s, C.signalsTotal d p' = .ok s) :
    ∀ (ms : List ℝ) {q : DMParticle}, (∀ m ∈ ms, 0 < m) → Twin U p q →
      ∃ q' rows, Detector.curveLoop U T C cert lowest ms d q = .ok (d, q', rows) ∧ Twin U p q' := by
  intro ms
  induction ms with
  | nil => exact fun _ hq => ⟨_, _, rfl, hq⟩
  | cons m ms ih =>
    intro q hm hq
    have hm0 : 0 < m := hm m (by simp)
    have hms : ∀ m' ∈ ms, 0 < m' := fun m' h' => hm m' (by simp [h'])
    unfold Detector.curveLoop
    split_ifs with hlow
    · exact ih hms hq
    · rw [setMass_ok hq.good.base hm0, hq.withMass_eq, Outcome.bind_ok]
      have hT : Twin U p (withMass U p m) := (Twin.refl hg).withMass hm0
      obtain ⟨s, hs⟩ := hs m _ hm0 (setMass_ok hg.base hm0)
      obtain ⟨p', x, h1⟩ := upperLimit_defined (T := T) hi hT.good.base hC ((get_withMass hg hm0 _).trans hc0) h0 hd hs cert
      obtain ⟨-, c1, hc1, h2⟩ := upperLimit_after hi hT.good.base h1
      obtain ⟨q', rows, h3, h4⟩ := ih hms (hT.withParam_self hc1)
      rw [h1, Outcome.bind_ok]
      dsimp only
      rw [h2, h3]
      exact ⟨_, _, rfl, h4⟩

/-- With defined signals the limit curve is defined. -/
theorem curve_defined {C : DetectorClass} {d : Detector} {p : DMParticle} {c0 cert lowest : ℝ} {ms : List ℝ} (hr : ReachableDetector d)
    (hp : Regular U p) (hC : LinearClass U C d.targets) (hc0 : p.getInteractionParameter U d.targets = .ok c0) (h0 : c0 ≠ 0)
    (hd : d.analysis = .poisson) (hlow : C.minimumDMMass d p = .ok lowest) (hm : ∀ m ∈ ms, 0 < m)
    (hs : ∀ m p', 0 < m → p.setMass U m = .ok p' → ∃ s, C.signalsTotal d p' = .ok s) :
    ∃ r, d.upperLimitCurve U T C p ms cert = .ok r := by
  have hg := hp.good
  obtain ⟨q', rows, h1, h2⟩ := curveLoop_defined (T := T) (cert := cert) (lowest := lowest) (Detector.reachable_sound hr) hg hC hc0 h0 hd hs
    ms hm (Twin.refl hg)
  unfold Detector.upperLimitCurve
  rw [hlow, Outcome.bind_ok, h1, Outcome.bind_ok]
  dsimp only
  rw [setMass_ok h2.good.base hg.base.mass]
  exact ⟨_, rfl⟩

end Obscura
