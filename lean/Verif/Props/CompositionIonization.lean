import Verif.Spec.Composition
import Verif.Lemmas.Composition

/-!
# C90 — the composition of an ionization target is not ordered
-/

namespace Obscura

open Spec IonizationDetector

variable {U : Units} {S : ShellRate} {T : Tools}

/-- Whatever the first computation returns, the second one returns. -/
def Refines {α : Type} (a b : Outcome α) : Prop := ∀ s, a = .ok s → b = .ok s

theorem Refines.refl {α : Type} (a : Outcome α) : Refines a a := fun _ h => h

theorem Refines.bind {α β : Type} {a b : Outcome α} {f g : α → Outcome β} (h : Refines a b) (hf : ∀ x, Refines (f x) (g x)) :
    Refines (a >>= f) (b >>= g) := by
  intro s hs
  obtain ⟨x, h1, h2⟩ := Outcome.bind_eq_ok.1 hs
  rw [h x h1, Outcome.bind_ok]
  exact hf x s h2

theorem Refines.collect {α β : Type} {f g : α → Outcome β} {l : List α} (h : ∀ x, Refines (f x) (g x)) :
    Refines (collect f l) (Obscura.collect g l) := by
  induction l with
  | nil => exact Refines.refl _
  | cons a l ih => exact (h a).bind fun _ => ih.bind fun _ => Refines.refl _

theorem Refines.sumOver {α : Type} {f g : α → Outcome ℝ} {l : List α} (h : ∀ x, Refines (f x) (g x)) :
    Refines (sumOver f l) (Obscura.sumOver g l) := (Refines.collect h).bind fun _ => Refines.refl _

theorem Refines.ite {α : Type} {c : Prop} [Decidable c] {a b a' b' : Outcome α} (h1 : Refines a a') (h2 : Refines b b') :
    Refines (if c then a else b) (if c then a' else b') := by
  split_ifs
  · exact h1
  · exact h2

/-- The detector `x` with another composition. -/
def withAtoms (x : IonizationDetector) (l : List (Atom × ℝ)) : IonizationDetector := { x with atoms := l.map Prod.fst, fractions := l.map Prod.snd }

/-- Sums over the atoms as sums over pairs. -/
theorem atoms_sum (l : List (Atom × ℝ)) (f : Atom → ℝ → Outcome ℝ) :
    Obscura.sumOver (fun i => do
      let a ← vecGet (l.map Prod.fst) i
      let b ← vecGet (l.map Prod.snd) i
      f a b) (List.range (l.map Prod.fst).length) = Obscura.sumOver (fun x => f x.1 x.2) l := by
  unfold Obscura.sumOver
  rw [List.length_map, collect_range l _ fun x => f x.1 x.2]
  intro i hi
  rw [vecGet_lt (by simpa using hi), Outcome.bind_ok, vecGet_lt (by simpa using hi), Outcome.bind_ok]
  simp

variable {l l' : List (Atom × ℝ)} (x : IonizationDetector) (h : l.Perm l')

include h

theorem rNe_perm (d : Detector) (ne : ℕ) (p : DMParticle) : Refines ((withAtoms x l).rNe U S d ne p) ((withAtoms x l').rNe U S d ne p) := by
  intro r hr
  have e := fun l : List (Atom × ℝ) => atoms_sum l fun a f => do
    let r ← rNeAtom U S d ne p a
    .ok (f * r)
  unfold rNe at hr ⊢
  rw [show (withAtoms x l).atoms = l.map Prod.fst from rfl, show (withAtoms x l).fractions = l.map Prod.snd from rfl, e] at hr
  rw [show (withAtoms x l').atoms = l'.map Prod.fst from rfl, show (withAtoms x l').fractions = l'.map Prod.snd from rfl, e]
  exact sumOver_perm_ok h hr

theorem dRdE_perm (d : Detector) (E : ℝ) (p : DMParticle) : ((withAtoms x l).dRdE S d E p).valueOr0 = ((withAtoms x l').dRdE S d E p).valueOr0 := by
  have e := fun l : List (Atom × ℝ) => atoms_sum l fun a f => do
    let r ← dRdEAtom S d E p a
    .ok (f * r)
  unfold dRdE
  rw [show (withAtoms x l).atoms = l.map Prod.fst from rfl, show (withAtoms x l).fractions = l.map Prod.snd from rfl, e,
    show (withAtoms x l').atoms = l'.map Prod.fst from rfl, show (withAtoms x l').fractions = l'.map Prod.snd from rfl, e]
  exact sumOver_perm h

theorem gap_perm : (withAtoms x l).energyGap = (withAtoms x l').energyGap := by
  unfold energyGap
  refine (h.map Prod.fst).foldl_eq' (fun a _ b _ g => ?_) _
  split_ifs <;> first | rfl | linarith

theorem lowestW_perm : (withAtoms x l).lowestW = (withAtoms x l').lowestW := by
  unfold lowestW
  refine (h.map Prod.fst).foldl_eq' (fun a _ b _ g => ?_) _
  split_ifs <;> first | rfl | linarith

theorem rS2_perm (d : Detector) (n : ℕ) (p : DMParticle) (sp : List ℝ) :
    Refines ((withAtoms x l).rS2 U S d n p sp) ((withAtoms x l').rS2 U S d n p sp) := by
  unfold rS2
  split_ifs
  · exact (Refines.collect fun ne => rNe_perm x h d ne p).bind fun _ => Refines.refl _
  · exact Refines.refl _

theorem rS2Bin_perm (d : Detector) (lo hi : ℕ) (p : DMParticle) (sp : List ℝ) :
    Refines ((withAtoms x l).rS2Bin U S d lo hi p sp) ((withAtoms x l').rS2Bin U S d lo hi p sp) := by
  have key : ∀ sp : List ℝ, Refines (Obscura.sumOver (fun nPE => do
      let eff ← (withAtoms x l).peEfficiency nPE
      let r ← (withAtoms x l).rS2 U S d nPE p sp
      .ok (eff * r)) (List.range' lo (hi + 1 - lo))) (Obscura.sumOver (fun nPE => do
      let eff ← (withAtoms x l').peEfficiency nPE
      let r ← (withAtoms x l').rS2 U S d nPE p sp
      .ok (eff * r)) (List.range' lo (hi + 1 - lo))) := fun sp =>
    Refines.sumOver fun n => (Refines.refl _).bind fun _ => (rS2_perm x h d n p sp).bind fun _ => Refines.refl _
  unfold rS2Bin
  split_ifs
  · exact (Refines.collect fun ne => rNe_perm x h d ne p).bind fun sp => key sp
  · exact (Refines.refl _).bind fun sp => key sp

theorem binned_perm (d : Detector) (p : DMParticle) (hd : Distribution) :
    Refines ((withAtoms x l).signalsBinned U S T d p hd) ((withAtoms x l').signalsBinned U S T d p hd) := by
  unfold signalsBinned
  refine Refines.ite (Refines.refl _) (Refines.ite ?_ (Refines.ite ?_ (Refines.ite ?_ (Refines.refl _))))
  · have : ∀ E, ((withAtoms x l).rateClass S hd).dRdE d E p = ((withAtoms x l').rateClass S hd).dRdE d E p := fun E => dRdE_perm x h d E p
    unfold Detector.signalsEnergyBins
    simp only [this]
    exact Refines.refl _
  · unfold signalsElectronBins
    exact Refines.ite (Refines.refl _) (Refines.collect fun bin => (rNe_perm x h d _ p).bind fun _ => Refines.refl _)
  · unfold signalsPEBins
    refine Refines.ite (Refines.refl _) ((Refines.collect fun ne => rNe_perm x h d ne p).bind fun sp => ?_)
    exact Refines.collect fun bin => (Refines.refl _).bind fun _ => (Refines.refl _).bind fun _ =>
      (rS2Bin_perm x h d _ _ p sp).bind fun _ => Refines.refl _

theorem total_perm (d : Detector) (p : DMParticle) (hd : Distribution) :
    Refines ((withAtoms x l).signalsTotal U S T d p hd) ((withAtoms x l').signalsTotal U S T d p hd) := by
  unfold signalsTotal
  refine Refines.ite ((binned_perm x h d p hd).bind fun _ => Refines.refl _) (Refines.ite ?_ (Refines.ite ?_ (Refines.ite ?_ (Refines.refl _))))
  · exact Refines.sumOver fun ne => (rNe_perm x h d ne p).bind fun _ => Refines.refl _
  · have e : ∀ l : List (Atom × ℝ), Obscura.sumOver (fun i => do
        let a ← vecGet (withAtoms x l).atoms i
        Obscura.sumOver (fun e => do
          let f ← vecGet (withAtoms x l).fractions i
          .ok (thresholdSignal U S T d p a.nucleus f e)) a.electrons) (List.range (withAtoms x l).atoms.length) =
        Obscura.sumOver (fun y : Atom × ℝ => Obscura.sumOver (fun e => .ok (thresholdSignal U S T d p y.1.nucleus y.2 e)) y.1.electrons) l := by
      intro l
      conv_lhs => unfold Obscura.sumOver
      conv_rhs => unfold Obscura.sumOver
      congr 1
      rw [show (withAtoms x l).atoms.length = l.length by simp [withAtoms], collect_range l]
      intro i hi
      rw [show vecGet (withAtoms x l).atoms i = .ok l[i].1 by rw [vecGet_lt (by simpa [withAtoms] using hi)]; simp [withAtoms],
        show vecGet (withAtoms x l).fractions i = .ok l[i].2 by rw [vecGet_lt (by simpa [withAtoms] using hi)]; simp [withAtoms]]
      rfl
    rw [e, e]
    exact fun r hr => sumOver_perm_ok h hr
  · exact (rS2Bin_perm x h d _ _ p []).bind fun _ => Refines.refl _

omit h

/-- C90 (ionization). The order in which the atoms of a mixture are named, with their shares, has no influence on any result, in any state of the
detector. -/
theorem C90_ionization_order (x : IonizationDetector) {atoms atoms' : List Atom} {shares shares' : List ℝ} (hl : atoms.length = shares.length)
    (hl' : atoms'.length = shares'.length) (h : (atoms.zip shares).Perm (atoms'.zip shares')) (hd : Distribution) :
    SameResults U S T hd { x with atoms := atoms, fractions := shares } { x with atoms := atoms', fractions := shares' } := by
  have e1 : ({ x with atoms := atoms, fractions := shares } : IonizationDetector) = withAtoms x (atoms.zip shares) := by
    simp [withAtoms, List.map_fst_zip hl.le, List.map_snd_zip hl.ge]
  have e2 : ({ x with atoms := atoms', fractions := shares' } : IonizationDetector) = withAtoms x (atoms'.zip shares') := by
    simp [withAtoms, List.map_fst_zip hl'.le, List.map_snd_zip hl'.ge]
  rw [e1, e2]
  refine ⟨fun _ => rfl, fun d p => ?_, fun p => ?_, fun d E p => dRdE_perm x h d E p,
    fun d ne p r => ⟨rNe_perm x h d ne p r, rNe_perm x h.symm d ne p r⟩, fun d n p r => ⟨rS2_perm x h d n p [] r, rS2_perm x h.symm d n p [] r⟩,
    fun d p s => ⟨total_perm x h d p hd s, total_perm x h.symm d p hd s⟩, fun d p s => ⟨binned_perm x h d p hd s, binned_perm x h.symm d p hd s⟩⟩
  · change minimumDMMass _ d hd = minimumDMMass _ d hd
    unfold minimumDMMass
    rw [gap_perm x h, lowestW_perm x h]
    rfl
  · unfold minimumDMSpeed
    rw [gap_perm x h]

/-- C90 (shares of an ionization target). The shares computed by the constructor follow their atoms. -/
theorem C90_ionization_shares {given given' : List ℝ} (h : given.Perm given') {n : ℕ} {shares : List ℝ}
    (hs : IonizationDetector.massFractions n given = .ok shares) :
    ∃ f : ℝ → ℝ, ∃ shares', IonizationDetector.massFractions n given' = .ok shares' ∧
      (given ≠ [] → shares = given.map f ∧ shares' = given'.map f) ∧ (given = [] → shares' = shares) := by
  classical
  unfold IonizationDetector.massFractions at hs ⊢
  rw [foldl_add_eq_sum] at hs ⊢
  rw [← h.length_eq, ← h.sum_eq]
  by_cases h0 : given.length = 0
  · rw [if_pos h0] at hs ⊢
    exact ⟨id, shares, hs, fun hne => absurd (List.length_eq_zero_iff.1 h0) hne, fun _ => rfl⟩
  · rw [if_neg h0] at hs ⊢
    by_cases hn : given.length ≠ n
    · rw [if_pos hn] at hs
      cases hs
    · rw [if_neg hn] at hs ⊢
      by_cases h1 : 1 < given.sum
      · simp only [if_pos h1] at hs ⊢
        cases hs
        exact ⟨fun y => y / given.sum, _, rfl, fun _ => ⟨rfl, rfl⟩, fun he => absurd (by rw [he]; rfl) h0⟩
      · simp only [if_neg h1] at hs ⊢
        cases hs
        exact ⟨id, _, rfl, fun _ => ⟨by simp, by simp⟩, fun he => absurd (by rw [he]; rfl) h0⟩

/-- Two atoms in either order. -/
example (x : IonizationDetector) (a b : Atom) (hd : Distribution) :
    SameResults U S T hd { x with atoms := [a, b], fractions := [0.3, 0.7] } { x with atoms := [b, a], fractions := [0.7, 0.3] } :=
  C90_ionization_order x rfl rfl (by simpa using List.Perm.swap (b, (0.7 : ℝ)) (a, 0.3) []) hd

end Obscura
