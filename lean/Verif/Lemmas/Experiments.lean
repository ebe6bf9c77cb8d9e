import Verif.Spec.Experiments
import Verif.Props.Detector
import Verif.Props.NuclearDetector
import Verif.Props.Crystal
import Verif.Props.Atom
import Verif.Props.Ionization

/-!
# Lemmas about the construction of predefined experiments
-/

namespace Obscura

open Spec

variable {S : Setup} {rows : List NuclearRow} {cache : List Nucleus}

namespace Setup

theorem getNuclei_ok (hf : S.files.nuclear = some rows) (hw : WellFormed rows) : ∀ (Zs : List ℕ) (cache : List Nucleus),
    CacheReachable S.U (some rows) cache → (∀ Z ∈ Zs, 1 ≤ Z ∧ Z ≤ 92) →
    ∃ c', S.getNuclei Zs cache = .ok (c', Zs.map (element S.U rows)) ∧ CacheReachable S.U (some rows) c' := by
  intro Zs
  induction Zs with
  | nil => intro cache hc _; exact ⟨cache, rfl, hc⟩
  | cons Z Zs ih =>
    intro cache hc hZ
    obtain ⟨c1, h1⟩ := (C51_get_nucleus (U := S.U) hw hc Z).1 (hZ Z (by simp))
    have hc1 := CacheReachable.lookup hc h1
    obtain ⟨c2, h2, hc2⟩ := ih c1 hc1 fun z hz => hZ z (by simp [hz])
    refine ⟨c2, ?_, hc2⟩
    unfold getNuclei
    rw [hf, h1, Outcome.bind_ok]
    dsimp only
    rw [h2, Outcome.bind_ok]
    rfl

theorem importList_ok {file : String} {l : List ℝ} (h : S.files.numbers file = some l) (dim : ℝ) :
    S.importList file dim = .ok (l.map fun x => x * dim) := by
  unfold importList; rw [h]

end Setup

/-- A detector made of a compound. -/
theorem make_composition {U : Units} (label : String) (expo : ℝ) {comp : List (ℕ × ℝ)} (hne : comp ≠ []) {abund : List ℝ}
    (ha : (abund = [] ∧ ∀ e ∈ comp, e.2 = 1) ∨ (abund = comp.map Prod.snd ∧ 1 < abund.sum)) (h0 : ∀ e ∈ comp, 0 ≤ e.2)
    (hm : ∀ e ∈ comp, 0 < (element U rows e.1).averageMass) :
    NuclearDetector.make label expo (comp.map fun e => element U rows e.1) abund = .ok (Detector.make label expo "Nuclei",
      { nuclei := comp.map fun e => element U rows e.1, fractions := massShares U rows comp, resolution := 0, usingTables := false,
        efficiencies := [] }) := by
  obtain ⟨nd, h1, -, -, -, h2, h3, -⟩ := C39_ratios label expo (nuclei := comp.map fun e => element U rows e.1) (abund := abund)
    (by simpa using hne) (by
      rcases ha with ⟨h, _⟩ | ⟨h, h'⟩
      · exact .inl h
      · exact .inr ⟨by simp [h], h'⟩) (by
      rcases ha with ⟨h, _⟩ | ⟨h, _⟩
      · simp [h]
      · rw [h]; intro a ha'
        obtain ⟨e, he, rfl⟩ := List.mem_map.1 ha'
        exact h0 e he) (by
      intro n hn
      obtain ⟨e, he, rfl⟩ := List.mem_map.1 hn
      exact hm e he)
  rw [h1]
  unfold NuclearDetector.make at h1
  obtain ⟨fr, h4, h5⟩ := Outcome.bind_eq_ok.1 h1
  cases h5
  have hg : ∀ i (hi : i < comp.length), abund.getD i 1 = (comp[i]).2 := by
    intro i hi
    rcases ha with ⟨h, h'⟩ | ⟨h, _⟩
    · rw [h, h' _ (List.getElem_mem hi)]; simp
    · rw [h, List.getD_eq_getElem?_getD]; simp [hi]
  have hsum : ∑ j : Fin (comp.map fun e => element U rows e.1).length,
      abund.getD j 1 * ((comp.map fun e => element U rows e.1)[j]).averageMass =
      (comp.map fun e => e.2 * (element U rows e.1).averageMass).sum := by
    rw [← List.sum_ofFn]
    congr 1
    refine List.ext_getElem (by simp) fun i h1 h2 => ?_
    have hi : i < comp.length := by simpa using h1
    simp only [List.getElem_ofFn, List.getElem_map, Fin.getElem_fin, hg i hi]
  have hfr : fr = massShares U rows comp := by
    dsimp only at h2 h3
    unfold massShares
    refine List.ext_getElem (by rw [h2]; simp) fun i a b => ?_
    have hi : i < comp.length := by simpa using b
    have := h3 i (by simpa using hi)
    rw [hsum, List.getD_eq_getElem?_getD, List.getElem?_eq_getElem a, Option.getD_some, hg i hi] at this
    rw [this]
    simp
  rw [hfr]

/-- `Use_Maximum_Gap` with events inside a window and the two ends of the window. -/
theorem useMaximumGap_window (d : Detector) {es : List ℝ} {lo hi : ℝ} (h : ∀ e ∈ es, lo ≤ e ∧ e ≤ hi) (hlh : lo ≤ hi) :
    ∃ data, d.useMaximumGap (es ++ [lo] ++ [hi]) =
        .ok { d with analysis := .maximumGap, gapData := data, energyThreshold := lo, energyMax := hi } ∧
      data.Pairwise (· ≤ ·) ∧ data.Perm (lo :: hi :: es) := by
  set l := es ++ [lo] ++ [hi] with hl
  have hmem : ∀ e ∈ l, lo ≤ e ∧ e ≤ hi := by
    intro e he
    simp only [hl, List.mem_append, List.mem_singleton] at he
    rcases he with (he | rfl) | rfl
    · exact h e he
    · exact ⟨le_rfl, hlh⟩
    · exact ⟨hlh, le_rfl⟩
  obtain ⟨d', h1, -, h3, h4, h5, h6, h7⟩ := C27_use_maximum_gap d (es := l) (by simp [hl])
  have e1 : d'.energyThreshold = lo := le_antisymm (h7 lo (by simp [hl])).1 (hmem _ h5).1
  have e2 : d'.energyMax = hi := le_antisymm (hmem _ h6).2 (h7 hi (by simp [hl])).2
  refine ⟨d'.gapData, ?_, h4, h3.trans ?_⟩
  · rw [h1]
    unfold Detector.useMaximumGap at h1
    dsimp only at h1
    split at h1
    · cases h1
      dsimp only at e1 e2
      rw [e1, e2]
    · cases h1
  · rw [hl]
    refine (List.perm_append_comm (l₂ := [hi])).trans ?_
    simp only [List.singleton_append]
    refine (List.Perm.cons hi (List.perm_append_comm (l₂ := [lo]))).trans ?_
    exact List.Perm.swap _ _ _

/-- The constructor with one atom. -/
theorem makeIonization_ok (hI : Installed S rows) (hc : CacheReachable S.U (some rows) cache) {atom : String}
    (ha : atom = "Xe" ∨ atom = "Ar") (label : String) (expo : ℝ) (target : String) :
    ∃ c' a, S.makeIonization cache label expo target atom =
        .ok (c', Detector.make label expo target, IonizationDetector.initial [a] [1]) ∧
      BuiltAtom S.U a ∧ a.nucleus = element S.U rows (atomData atom).1 ∧ a.W = (atomData atom).2.1 * S.U.eV ∧
      a.electrons.map (fun s => (s.name, s.binding, s.secondaries)) =
        (atomData atom).2.2.map fun s => (s.1, s.2.1 * S.U.eV, s.2.2) := by
  obtain ⟨h1, h2⟩ := C52_short_names_partial (U := S.U) (P := S.P) (tables := S.files.response) hI.complete hc
  unfold Setup.makeIonization IonizationDetector.makeOne
  rw [hI.nuclear]
  rcases ha with rfl | rfl
  · obtain ⟨c', a, e1, e2, e3, e4⟩ := h1 hI.xenon
    rw [e1, Outcome.bind_ok]
    exact ⟨c', a, rfl, ⟨_, _, _, _, _, _, e1⟩, by simpa [atomData] using e2, by simpa [atomData] using e3, by simpa [atomData] using e4⟩
  · obtain ⟨c', a, e1, e2, e3, e4⟩ := h2 hI.argon
    rw [e1, Outcome.bind_ok]
    exact ⟨c', a, rfl, ⟨_, _, _, _, _, _, e1⟩, by simpa [atomData] using e2, by simpa [atomData] using e3, by simpa [atomData] using e4⟩

/-- The atoms of such a detector are those constructed from the installed tables. -/
theorem makeIonization_atom {label target atom : String} {expo : ℝ} {c' : List Nucleus} {d : Detector} {a : Atom} {l : List ℝ}
    (h : S.makeIonization cache label expo target atom = .ok (c', d, IonizationDetector.initial [a] l)) :
    Atom.make S.U S.P S.files.response S.files.nuclear cache atom = .ok (c', a) := by
  unfold Setup.makeIonization IonizationDetector.makeOne at h
  obtain ⟨r, h1, h⟩ := Outcome.bind_eq_ok.1 h
  cases h
  exact h1

/-- The constructor of a silicon detector. -/
theorem makeCrystal_ok (hI : Installed S rows) (label : String) (expo : ℝ) :
    ∃ c, S.makeCrystal label expo "Si" = .ok (Detector.make label expo "Electrons",
        { crystal := c, qThreshold := none, usingQThreshold := none, usingQBins := none }) ∧ c.name = "Si" ∧ BuiltCrystal S.U c := by
  obtain ⟨l, h1, h2⟩ := hI.silicon
  obtain ⟨c, h3, h4⟩ := (C57_construction (U := S.U) S.P (fun _ => l) "Si").1 (.inl rfl) h2
  refine ⟨c, ?_, h4, ⟨_, _, _, h3⟩⟩
  unfold Setup.makeCrystal CrystalDetector.make
  rw [h1]
  dsimp only
  rw [h3, Outcome.bind_ok]

end Obscura
