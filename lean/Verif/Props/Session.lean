import Verif.Lemmas.Session
import Verif.Lemmas.Composition
import Verif.Props.MissingFiles

/-!
# C110 — earlier calls do not influence later ones

The nuclear data are kept in a global variable. What a program gets from its calls is nevertheless what every call returns in a process
of its own.
-/

namespace Obscura

open Spec

variable {S : Setup} {calls calls' : List Call} {call : Call} {cache : List Nucleus} {ps ps' : List Product}

theorem session_loaded (h : Loaded S.U S.files.nuclear cache) {c' : List Nucleus} (hs : session S cache calls = .ok (c', ps)) :
    Loaded S.U S.files.nuclear c' := by
  induction calls generalizing cache c' ps with
  | nil => cases hs; exact h
  | cons call calls ih =>
    obtain ⟨⟨c1, p⟩, h1, hs⟩ := Outcome.bind_eq_ok.1 hs
    obtain ⟨⟨c2, qs⟩, h2, hs⟩ := Outcome.bind_eq_ok.1 hs
    cases hs
    exact ih (perform_loaded h h1) h2

theorem returns_alone (h : Loaded S.U S.files.nuclear cache) (call : Call) : call.returns S cache = call.alone S :=
  (perform_agree h (.inl rfl) call).returned

theorem session_alone (h : Loaded S.U S.files.nuclear cache) (calls : List Call) :
    (session S cache calls >>= fun r => Outcome.ok r.2) = collect (Call.alone S) calls := by
  induction calls generalizing cache with
  | nil => rfl
  | cons call calls ih =>
    show ((call.perform S cache >>= fun r => session S r.1 calls >>= fun q => Outcome.ok (q.1, r.2 :: q.2)) >>= _) =
      (call.alone S >>= fun p => collect (Call.alone S) calls >>= fun ps => Outcome.ok (p :: ps))
    rw [← returns_alone h call]
    unfold Call.returns
    cases hp : call.perform S cache with
    | exit => rfl
    | ub => rfl
    | nonfinite => rfl
    | ok r =>
      obtain ⟨c1, p⟩ := r
      have := ih (perform_loaded h hp)
      show ((session S c1 calls >>= fun q => Outcome.ok (q.1, p :: q.2)) >>= _) = (collect (Call.alone S) calls >>= fun ps => Outcome.ok (p :: ps))
      rw [← this]
      cases session S c1 calls <;> rfl

/-- **C110** (whole programs): for every sequence of calls, the program gets from each call what the call returns in a process of its own,
and it ends as the first of the calls that does not return. -/
theorem C110_program (S : Setup) (calls : List Call) : results S calls = collect (Call.alone S) calls := session_alone (.inl rfl) calls

/-- **C110** (one call): after every sequence of calls which returned, a call has the outcome it has in a process of its own. -/
theorem C110_call (h : session S [] calls = .ok (cache, ps)) (call : Call) : call.returns S cache = call.alone S :=
  returns_alone (session_loaded (.inl rfl) h) call

/-- **C110** (repeated calls): the same call gives the same result whenever it is made. -/
theorem C110_repeated (h : results S calls = .ok ps) {i j : ℕ} {p q : Product} (hc : calls[i]? = calls[j]?) (hp : ps[i]? = some p)
    (hq : ps[j]? = some q) : p = q := by
  rw [C110_program] at h
  have key : ∀ (l : List Call) (ps : List Product), collect (Call.alone S) l = .ok ps → ∀ (i : ℕ) (p : Product), ps[i]? = some p →
      ∃ call : Call, l[i]? = some call ∧ call.alone S = .ok p := by
    intro l
    induction l with
    | nil => intro ps h i p hp; cases h; simp at hp
    | cons a l ih =>
      intro ps h i p hp
      obtain ⟨b, hb, h⟩ := Outcome.bind_eq_ok.1 h
      obtain ⟨bs, hbs, h⟩ := Outcome.bind_eq_ok.1 h
      cases h
      cases i with
      | zero => simp only [List.getElem?_cons_zero, Option.some.injEq] at hp ⊢; exact ⟨a, rfl, hp ▸ hb⟩
      | succ i => simp only [List.getElem?_cons_succ] at hp ⊢; exact ih bs hbs i p hp
  obtain ⟨a, ha, h1⟩ := key calls ps h i p hp
  obtain ⟨b, hb, h2⟩ := key calls ps h j q hq
  rw [hc, hb] at ha
  cases ha
  rw [h1] at h2
  cases h2
  rfl

/-- **C110** (order): the order of the calls does not matter. A program which makes the same calls in another order gets the same results, in
that order. -/
theorem C110_order (h : results S calls = .ok ps) (hperm : calls.Perm calls') :
    ∃ ps', results S calls' = .ok ps' ∧ (calls.zip ps).Perm (calls'.zip ps') := by
  rw [C110_program] at h
  simp only [C110_program]
  have hz : ∀ (l : List Call), collect (fun call => call.alone S >>= fun p => .ok (call, p)) l =
      (collect (Call.alone S) l >>= fun ps => .ok (l.zip ps)) := by
    intro l
    induction l with
    | nil => rfl
    | cons a l ih =>
      rw [collect, collect, ih]
      cases a.alone S with
      | exit => rfl
      | ub => rfl
      | nonfinite => rfl
      | ok p => cases collect (Call.alone S) l <;> rfl
  have h1 := hz calls
  rw [h, Outcome.bind_ok] at h1
  obtain ⟨zs, h2, h3⟩ := collect_perm hperm h1
  rw [hz, Outcome.bind_eq_ok] at h2
  obtain ⟨ps', h4, h5⟩ := h2
  cases h5
  exact ⟨ps', h4, h3⟩

/-- Non-vacuity: a program which sets up three experiments and looks up a nucleus, on a complete installation. -/
example : ∃ (c₁ c₂ c₃ : Config) (ps : List Product), results sampleSetup [.configured c₁, .nucleus 54, .configured c₂, .configured c₃] = .ok ps ∧
    ps.length = 4 := by
  have hf : ∀ e : Search, e.Known → ∃ p, (Call.configured fun k => if k = "DD_experiment" then some (.string e.name) else none).alone sampleSetup = .ok p := by
    intro e he
    obtain ⟨⟨r, hr⟩, -⟩ := C108_removed sampleSetup_installed (c := fun k => if k = "DD_experiment" then some (.string e.name) else none) he rfl
    refine ⟨.detector r.2, ?_⟩
    show ((Config.detector sampleSetup _ [] >>= _) >>= _) = _
    rw [hr]
    rfl
  obtain ⟨p₁, h1⟩ := hf (.migdal ionizationSearches[0]) (List.getElem_mem _)
  obtain ⟨p₂, h2⟩ := hf (.recoils recoilSearches[2]) (List.getElem_mem _)
  obtain ⟨p₃, h3⟩ := hf (.pairs pairSearches[1]) (List.getElem_mem _)
  have h4 : ∃ p, (Call.nucleus 54).alone sampleSetup = .ok p := by
    obtain ⟨c', h⟩ := (C51_get_nucleus (U := sampleSetup.U) sampleSetup_installed.complete .start 54).1 (by norm_num)
    refine ⟨.nucleus (element sampleSetup.U shippedTable 54), ?_⟩
    show ((getNucleus sampleSetup.U sampleSetup.files.nuclear [] 54 >>= _) >>= _) = _
    rw [sampleSetup_installed.nuclear, h]
    rfl
  obtain ⟨p₄, h4⟩ := h4
  have key : ∀ a b c d : Call, a.alone sampleSetup = .ok p₁ → b.alone sampleSetup = .ok p₄ → c.alone sampleSetup = .ok p₂ →
      d.alone sampleSetup = .ok p₃ → results sampleSetup [a, b, c, d] = .ok [p₁, p₄, p₂, p₃] := by
    intro a b c d ha hb hc hd
    rw [C110_program, collect, collect, collect, collect, ha, hb, hc, hd]
    rfl
  exact ⟨_, _, _, _, key _ _ _ _ h1 h4 h2 h3, rfl⟩

end Obscura
