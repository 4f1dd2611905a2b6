import Verif.Input.TransientSpec
import Verif.Input.RunLemmas

/-! # Lemmas: reading a file for a kinetics calculation -/

namespace Verif.Input

open Verif Outcome

noncomputable section

variable {lib : Lib} {raw lines : List Text} {lam beta times rhos : Vec ℝ} {alpha power : ℝ}

theorem transientFile_full (h : TransientFile lib lines lam beta alpha power times rhos) (hn : times.n = rhos.n) (g : Diffusion.Geom) (rs : List Region) (E : Nat) :
    Full lib lines [.kinetics] g rs E where
  solvers := by
    obtain ⟨c, h⟩ := h.solvers
    exact ⟨c, _, h, .cons (by simp [solverNames]) .nil⟩
  some := by simp
  headers := by
    intro k hk
    simp only [everyone, List.length_singleton, Nat.not_succ_le_self, if_false, List.append_nil, List.mem_singleton] at hk
    rw [hk]
    exact h.header
  settings := by
    intro k hk key hkey
    simp only [everyone, List.length_singleton, Nat.not_succ_le_self, if_false, List.append_nil, List.mem_singleton] at hk
    subst hk
    simp only [settingsOf, List.append_nil, List.mem_cons, List.not_mem_nil, or_false] at hkey
    rcases hkey with rfl | rfl
    · obtain ⟨v, x, h1, h2⟩ := h.accuracy
      exact ⟨_, h1, .accuracy h2⟩
    · obtain ⟨v, n, h1, h2, h3⟩ := h.limit
      exact ⟨_, h1, .limit h2 h3⟩
  relaxation := by simp
  body := by simp
  tables := by simp [neutronics]
  scattering := by simp [neutronics]
  conductivity := by simp
  temperatures := by simp
  sources := by simp
  power := by simp
  kinetics := fun _ => ⟨⟨_, h.generation⟩, ⟨_, h.start⟩, ⟨_, h.constants⟩, ⟨_, h.fractions⟩, _, _, h.times, h.reactivities, hn⟩
  plots := h.plots

/-- Two vectors with the same entries. -/
structure SameVec (u v : Vec ℝ) : Prop where
  n : u.n = v.n
  v : ∀ i, i < v.n → u.v i = v.v i

theorem listFile_same {key : String} {u v : Vec ℝ} (h : ∃ c ws, Card lines key (c :: ws) ∧ Lists lib ws u) (h' : ListFile lib lines key v) : SameVec u v := by
  obtain ⟨c, ws, h1, h2⟩ := h
  obtain ⟨c', ws', h1', h2'⟩ := h'
  have := card_unique h1 h1'
  injection this with _ this
  subst this
  obtain ⟨h4, h5⟩ := lists_unique h2 h2'
  exact ⟨h4, h5⟩

theorem numberFile_same {key : String} {x y : ℝ} (h : ∃ c w, Card lines key [c, w] ∧ lib.stod w = ok x) (h' : NumberFile lib lines key y) : x = y := by
  obtain ⟨c, w, h1, h2⟩ := h
  obtain ⟨c', w', h1', h2'⟩ := h'
  have := card_unique h1 h1'
  simp only [List.cons.injEq, and_true] at this
  rw [this.2, h2'] at h2
  cases h2
  rfl

/-- All that is used of the reader about a file for a kinetics calculation. -/
structure TransientGot (p : Calc.Plant) (lam beta : Vec ℝ) (alpha power : ℝ) (times rhos : Vec ℝ) (r : Reader) : Prop where
  solvers : ∃ o : Calc.Settings, r.solvers = [o] ∧ o.kind = .kinetics
  lam : SameVec r.plant.kinetics.lam lam
  beta : SameVec r.plant.kinetics.beta beta
  alpha : r.plant.kinetics.alpha = alpha
  power : r.plant.kinetics.power = power
  times : SameVec r.plant.kinetics.times times
  rhos : SameVec r.plant.kinetics.rhos rhos
  bounds : r.plant.grid.bounds = p.grid.bounds

theorem transientFile_read (hc : Clean lib lines) (hraw : Stored raw lines) (h : TransientFile lib lines lam beta alpha power times rhos) (hn : times.n = rhos.n) (p : Calc.Plant) :
    ∃ r, readData lib (some raw) p = ok r ∧ r.lines = lines ∧ TransientGot p lam beta alpha power times rhos r := by
  obtain ⟨r, hr, hl, hk, -, -⟩ := C87 hc hraw (transientFile_full h hn .slab [] 0) p
  have hk' : r.solvers.map Calc.Settings.kind = [.kinetics] := by rw [hk]; rfl
  have hK := C83_kinetics hc.1 hr (by rw [hk']; simp)
  rw [hl] at hK
  refine ⟨r, hr, hl, ?_, listFile_same hK.lam h.constants, listFile_same hK.beta h.fractions, numberFile_same hK.alpha h.generation, numberFile_same hK.power h.start,
    listFile_same hK.times h.times, listFile_same hK.rhos h.reactivities, ?_⟩
  · obtain ⟨o, ho⟩ : ∃ o, r.solvers = [o] := by
      have := congrArg List.length hk'
      rw [List.length_map] at this
      exact List.length_eq_one_iff.1 this
    rw [ho] at hk'
    exact ⟨o, ho, (List.cons.inj hk').1⟩
  · obtain ⟨ls, r1, r2, r3, r4, h0, h1, h2, h3, h4, h5⟩ := readData_stages hr
    obtain ⟨x, rfl⟩ := setPlots_eq h5
    have f3 := setSettings_frame h3
    obtain ⟨f4, e4⟩ := setAll_frame h4
    obtain ⟨ws, -, h1⟩ := bind_eq_ok.1 h1
    obtain ⟨ss, -, h1⟩ := bind_eq_ok.1 h1
    cases h1
    obtain ⟨a, b, c⟩ := setShape_solvers h2
    have hkinds : r4.solvers.map Calc.Settings.kind = (if 2 ≤ ss.length then ss ++ [newSolver .coupled] else ss).map Calc.Settings.kind := by
      rw [e4, f3.kinds, b]
    have hno : ∀ k, k ≠ Calc.Kind.kinetics → isHere (if 2 ≤ ss.length then ss ++ [newSolver .coupled] else ss) k = false := by
      intro k hk0
      rw [Bool.eq_false_iff, Ne, isHere_iff, ← hkinds, hk']
      simpa using hk0
    unfold setShape at h2
    rw [if_neg (by
      simp only [Bool.or_eq_true, not_or]
      simp [hno])] at h2
    cases h2
    exact (f4.grid.bounds).trans f3.grid.bounds

/-- Lists of different lengths are refused. -/
theorem transientFile_refused (hc : Clean lib lines) (hraw : Stored raw lines) (h : TransientFile lib lines lam beta alpha power times rhos) (hn : times.n ≠ rhos.n) (p : Calc.Plant) :
    readData lib (some raw) p = exit := by
  obtain ⟨c, hs⟩ := h.solvers
  have hkind : everyone [Calc.Kind.kinetics] = [.kinetics] := by simp [everyone]
  unfold readData
  rw [(C36_tidy raw lines).2 hraw, ok_bind, setSolvers_ok hc hs (ks := [.kinetics]) (.cons (by simp [solverNames]) .nil) (by simp) p, ok_bind]
  generalize hr0 : (⟨lines, _, p, [], [], []⟩ : Reader) = r0
  have hl0 : r0.lines = lines := by rw [← hr0]
  have hs0 : r0.solvers.map Calc.Settings.kind = [.kinetics] := by
    rw [← hr0]
    exact (kinds_new _).trans hkind
  have hno : ∀ k, k ≠ Calc.Kind.kinetics → isHere r0.solvers k = false := by
    intro k hk0
    rw [Bool.eq_false_iff, Ne, isHere_iff, hs0]
    simpa using hk0
  have hsh : setShape lib r0 = ok r0 := by
    unfold setShape
    rw [if_neg (by
      simp only [Bool.or_eq_true, not_or]
      simp [hno])]
  rw [hsh, ok_bind]
  subst hl0
  obtain ⟨r1, h1, f1, -⟩ := runPasses_ok (lib := lib) (g := .slab) (E := 0) (l := passes) (fun x hx => by simp [allPasses, hx]) hc (fun x hx k hk hi => by
    rw [hs0, List.mem_singleton] at hk
    subst hk
    have hset := pass_setting hx hi
    simp only [passes, List.mem_cons, List.not_mem_nil, or_false] at hx
    refine ⟨⟨h.header, ?_⟩, ?_⟩
    · simp only [settingsOf, List.append_nil, List.mem_cons, List.not_mem_nil, or_false] at hset
      rcases hset with e | e
      · rw [e]
        obtain ⟨v, x, h1, h2⟩ := h.accuracy
        exact ⟨_, h1, .accuracy h2⟩
      · rw [e]
        obtain ⟨v, n, h1, h2, h3⟩ := h.limit
        exact ⟨_, h1, .limit h2 h3⟩
    · rcases hx with rfl | rfl | rfl | rfl | rfl | rfl | rfl | rfl | rfl | rfl | rfl | rfl | rfl
      · exact Or.inl rfl
      · exact Or.inl rfl
      all_goals
        rcases hi with hi | hi <;> cases hi)
  have k1 : r1.solvers.map Calc.Settings.kind = [.kinetics] := f1.kinds.trans hs0
  obtain ⟨r2, h2, -⟩ := setRelaxation_ok (lib := lib) (g := .slab) (E := 0) (r := r1) (by rw [f1.lines]; exact hc) (fun ha hb' hc' => by
    rw [k1] at hc'
    simp at hc')
  have f2 := setRelaxation_frame h2
  rw [setSettings_passes, h1, ok_bind, h2, ok_bind]
  obtain ⟨o, ho, hk⟩ : ∃ o : Calc.Settings, r2.solvers = [o] ∧ o.kind = .kinetics := by
    have h3 : r2.solvers.map Calc.Settings.kind = [.kinetics] := f2.kinds.trans k1
    obtain ⟨o, ho⟩ := List.length_eq_one_iff.1 ((List.length_map (f := Calc.Settings.kind)).symm.trans (congrArg List.length h3))
    rw [ho] at h3
    exact ⟨o, ho, (List.cons.inj h3).1⟩
  have hl : r2.lines = r0.lines := f2.lines.trans f1.lines
  have hk2 : setKinetics lib r2 = exit := by
    rw [← hl] at hc h
    obtain ⟨w1, a1, b1⟩ := readOne_number hc h.generation
    obtain ⟨w2, a2, b2⟩ := readOne_number hc h.start
    obtain ⟨y3, a3, b3⟩ := readValues_list hc h.constants
    obtain ⟨y4, a4, b4⟩ := readValues_list hc h.fractions
    obtain ⟨y5, a5, b5⟩ := readValues_list hc h.times
    obtain ⟨y6, a6, b6⟩ := readValues_list hc h.reactivities
    unfold setKinetics
    rw [a1, ok_bind, b1, ok_bind, a2, ok_bind, b2, ok_bind, a3, ok_bind, a4, ok_bind, a5, ok_bind, a6, ok_bind, if_neg (by omega)]
  rw [ho]
  unfold setAll setData
  rw [hk]
  dsimp only
  rw [hk2]
  rfl

end

end Verif.Input
