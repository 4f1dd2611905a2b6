import Verif.Output.Report
import Verif.Output.Figures
import Verif.Input.RunLemmas

/-!
# Helper lemmas for the report: what calculations leave in the reactor
-/

namespace Verif.Output

open Verif Outcome

noncomputable section

open scoped Classical

variable {t : Calc.Tools} {o : Calc.Settings} {p p' : Calc.Plant} {g g' : Mesh.Grid}

/-! ### fields -/

/-- Nothing but temperatures and heat sources changed. -/
structure Steady (g g' : Mesh.Grid) : Prop where
  kept : Input.Kept g g'
  energies : g'.energies = g.energies
  groups : ∀ i, (g'.mats.v i).energies = (g.mats.v i).energies

theorem Steady.refl (g : Mesh.Grid) : Steady g g := ⟨Input.Kept.refl g, rfl, fun _ => rfl⟩

theorem Steady.trans {g'' : Mesh.Grid} (h : Steady g g') (h' : Steady g' g'') : Steady g g'' :=
  ⟨h.kept.trans h'.kept, h'.energies.trans h.energies, fun i => (h'.groups i).trans (h.groups i)⟩

theorem change_steady {f : Mesh.Material → Mesh.Material} {i : Nat} (h : Mesh.change f i g = ok g') (hf : ∀ m, Input.label (f m) = Input.label m)
    (he : ∀ m, (f m).energies = m.energies) : Steady g g' := by
  refine ⟨Input.change_kept h hf, ?_, fun j => ?_⟩ <;> obtain ⟨-, rfl⟩ := Input.change_eq h
  · rfl
  · show (Function.update g.mats.v i (f (g.mats.v i)) j).energies = _
    by_cases hj : j = i
    · subst hj
      rw [Function.update_self, he]
    · rw [Function.update_of_ne hj]

theorem loop_steady {body : Nat → Mesh.Grid → Outcome Mesh.Grid} (hb : ∀ i g g', body i g = ok g' → Steady g g') {n : Nat} (h : loop body n g = ok g') : Steady g g' :=
  loop_inv_of_ok (fun _ u => Steady g u) (Steady.refl g) (fun i u u' _ hu he => hu.trans (hb i u u' he)) h

theorem setTemperatures_steady {x : Vec ℝ} (h : Mesh.setTemperatures x g = ok g') : Steady g g' :=
  loop_steady (fun i u u' he => by
    obtain ⟨y, -, he⟩ := bind_eq_ok.1 he
    exact change_steady he (fun _ => rfl) fun _ => rfl) h

theorem setHeatSources_steady {x : Vec ℝ} (h : Mesh.setHeatSources x g = ok g') : Steady g g' :=
  loop_steady (fun i u u' he => by
    obtain ⟨y, -, he⟩ := bind_eq_ok.1 he
    exact change_steady he (fun _ => rfl) fun _ => rfl) h

theorem heatLoop_steady {lin : Mat ℝ → List ℝ → Nat → ℝ} {bc : Vec ℝ} {acc : ℝ} {maxIter : Int} {fuel : Nat} {old : Vec ℝ}
    (h : Calc.heatLoop lin bc acc maxIter fuel old g = ok g') : Steady g g' := by
  induction fuel generalizing old g with
  | zero =>
    unfold Calc.heatLoop Calc.notConverged at h
    split at h <;> cases h
  | succ fuel ih =>
    unfold Calc.heatLoop at h
    simp only [bind_eq_ok] at h
    obtain ⟨d, -, s, -, g1, h1, x, -, m, -, h⟩ := h
    have hs := setTemperatures_steady h1
    split at h
    · cases h
      exact hs
    · exact hs.trans (ih h)

theorem part_kept {β : Type} (f : Mesh.Material → β) {put : Mat Fl → Mesh.Material → Mesh.Material} (hp : ∀ x m, f (put x m) = f m) {b : Mesh.Box Fl} {n : Nat} (h : loop (fun m M => do
    let x ← Mesh.chip b m
    Mesh.change (put x) m M) n g = ok g') (i : Nat) : f (g'.mats.v i) = f (g.mats.v i) := by
  refine loop_inv_of_ok (fun _ (u : Mesh.Grid) => f (u.mats.v i) = f (g.mats.v i)) rfl (fun j u u' _ hu he => ?_) h
  obtain ⟨x, -, he⟩ := bind_eq_ok.1 he
  obtain ⟨-, rfl⟩ := Input.change_eq he
  show f (Function.update u.mats.v j (put x (u.mats.v j)) i) = _
  by_cases hj : i = j
  · subst hj
    rw [Function.update_self, hp, hu]
  · rw [Function.update_of_ne hj, hu]

/-! ### the reactor -/

/-- The reactor is in order: mesh, materials, stored fluxes and factors belong together. -/
structure Sound (p : Calc.Plant) : Prop where
  whole : Whole p.grid
  furnished : Mesh.Furnished p.grid
  stocked : Stocked p.grid
  forward : p.grid.nForward = p.kForward.length
  adjoint : p.grid.nAdjoint = p.kAdjoint.length
  cells : 0 < p.grid.cells

/-- What all calculations keep: the numbers of groups and cells and the total fluxes. -/
structure Same (p p' : Calc.Plant) : Prop where
  energies : p'.grid.energies = p.grid.energies
  cells : p'.grid.cells = p.grid.cells
  totals : ∀ i, (p'.grid.mats.v i).total = (p.grid.mats.v i).total

theorem Same.refl (p : Calc.Plant) : Same p p := ⟨rfl, rfl, fun _ => rfl⟩

theorem Same.trans {p'' : Calc.Plant} (h : Same p p') (h' : Same p' p'') : Same p p'' :=
  ⟨h'.energies.trans h.energies, h'.cells.trans h.cells, fun i => (h'.totals i).trans (h.totals i)⟩

theorem steady_sound (h : Sound p) (hs : Steady p.grid g') : Sound { p with grid := g' } ∧ Same p { p with grid := g' } := by
  have hk := hs.kept
  refine ⟨⟨⟨?_, ?_⟩, ⟨?_, fun i hi => ?_⟩, ⟨?_, ?_⟩, ?_, ?_, ?_⟩, ⟨hs.energies, hk.cells, hk.total⟩⟩
  · show g'.bounds.n = g'.cells + 1
    rw [hk.bounds, hk.cells, h.whole.bounds]
  · show g'.mats.n = g'.cells
    rw [hk.size, hk.cells, h.whole.mats]
  · show g'.mats.n = g'.cells
    rw [hk.size, hk.cells, h.whole.mats]
  · show (g'.mats.v i).energies = g'.energies
    rw [hs.groups, hs.energies]
    exact h.furnished.energies i (hk.cells ▸ hi)
  · show g'.nForward = 0 ∨ ∀ i, i < g'.cells → g'.energies ≤ (g'.mats.v i).flux.r ∧ g'.nForward ≤ (g'.mats.v i).flux.c
    rw [hk.forward, hk.cells, hs.energies]
    refine h.stocked.forward.imp_right fun h' i hi => ?_
    rw [hk.flux]
    exact h' i hi
  · show g'.nAdjoint = 0 ∨ ∀ i, i < g'.cells → g'.energies ≤ (g'.mats.v i).adj.r ∧ g'.nAdjoint ≤ (g'.mats.v i).adj.c
    rw [hk.adjoint, hk.cells, hs.energies]
    refine h.stocked.adjoint.imp_right fun h' i hi => ?_
    rw [hk.adj]
    exact h' i hi
  · exact hk.forward.trans h.forward
  · exact hk.adjoint.trans h.adjoint
  · exact hk.cells.symm ▸ h.cells

theorem heatSolve_sound (h : Sound p) {x : Vec ℝ} (hr : Calc.heatSolve t o p = ok (p', x)) :
    Sound p' ∧ Same p p' ∧ p'.kForward = p.kForward ∧ p'.kAdjoint = p.kAdjoint := by
  unfold Calc.heatSolve at hr
  simp only [bind_eq_ok] at hr
  obtain ⟨old, -, g, hg, hr⟩ := hr
  cases hr
  obtain ⟨h1, h2⟩ := steady_sound h (heatLoop_steady hg)
  exact ⟨h1, h2, rfl, rfl⟩

theorem heatRelax_sound (h : Sound p) {w : ℝ} {x : Vec ℝ} (hr : Calc.heatRelax w p x = ok p') : Sound p' ∧ Same p p' ∧ p'.kForward = p.kForward ∧ p'.kAdjoint = p.kAdjoint := by
  unfold Calc.heatRelax at hr
  simp only [bind_eq_ok] at hr
  obtain ⟨_, _, _, _, g, hg, hr⟩ := hr
  cases hr
  obtain ⟨h1, h2⟩ := steady_sound h (setTemperatures_steady hg)
  exact ⟨h1, h2, rfl, rfl⟩

theorem powerRelax_sound (h : Sound p) {w : ℝ} {x : Vec ℝ} (hr : Calc.powerRelax w p x = ok p') : Sound p' ∧ Same p p' ∧ p'.kForward = p.kForward ∧ p'.kAdjoint = p.kAdjoint := by
  unfold Calc.powerRelax at hr
  simp only [bind_eq_ok] at hr
  obtain ⟨_, _, _, _, g, hg, hr⟩ := hr
  cases hr
  obtain ⟨h1, h2⟩ := steady_sound h (setHeatSources_steady hg)
  exact ⟨h1, h2, rfl, rfl⟩

/-! ### criticality calculations -/

theorem writeForward_sound (h : Sound p) {s : Solve.State} {E : Nat} (hE : p.grid.energies ≤ E) (hs : s.forward.modes = s.forward.k.length)
    (hr : Calc.writeForward s E p = ok p') : Sound p' ∧ Same p p' ∧ p'.kForward = s.forward.k ∧ p'.kAdjoint = p.kAdjoint := by
  unfold Calc.writeForward at hr
  simp only [bind_eq_ok] at hr
  obtain ⟨g1, h1, g2, h2, hr⟩ := hr
  cases hr
  obtain ⟨g1', e1, sb, n1, n2, hv⟩ := Calc.setFluxes_ok h.furnished (t := ⟨E, p.grid.cells, s.forward.modes, s.forward.flux⟩) rfl
  rw [h1] at e1
  cases e1
  have ht := part_kept Mesh.Material.total (put := fun x m => { m with flux := x }) (fun _ _ => rfl) h1
  have hS : Sound { p with grid := { g1 with nForward := s.forward.modes }, kForward := s.forward.k } := by
    refine ⟨⟨?_, ?_⟩, ⟨?_, fun i hi => ?_⟩, ⟨Or.inr fun i hi => ?_, ?_⟩, hs, ?_, ?_⟩
    · show g1.bounds.n = g1.cells + 1
      rw [sb.bounds, sb.cells, h.whole.bounds]
    · exact sb.filled h.whole.mats
    · exact sb.filled h.whole.mats
    · exact (sb.furnished h.furnished).energies i hi
    · obtain ⟨-, -, -, a, b, -⟩ := hv i (sb.cells ▸ hi)
      show g1.energies ≤ _ ∧ s.forward.modes ≤ _
      rw [a, b, sb.energies]
      exact ⟨hE, le_rfl⟩
    · show g1.nAdjoint = 0 ∨ ∀ i, i < g1.cells → g1.energies ≤ (g1.mats.v i).adj.r ∧ g1.nAdjoint ≤ (g1.mats.v i).adj.c
      rw [n2, sb.cells, sb.energies]
      refine h.stocked.adjoint.imp_right fun h' i hi => ?_
      rw [(hv i hi).2.2.1]
      exact h' i hi
    · exact n2.trans h.adjoint
    · exact sb.cells.symm ▸ h.cells
  obtain ⟨a, b⟩ := steady_sound hS (setHeatSources_steady h2)
  exact ⟨a, Same.trans ⟨sb.energies, sb.cells, ht⟩ b, rfl, rfl⟩

theorem writeAdjoint_sound (h : Sound p) {s : Solve.State} {E : Nat} (hE : p.grid.energies ≤ E) (hs : s.adjoint.modes = s.adjoint.k.length)
    (hr : Calc.writeAdjoint s E p = ok p') : Sound p' ∧ Same p p' ∧ p'.kForward = p.kForward ∧ p'.kAdjoint = s.adjoint.k := by
  unfold Calc.writeAdjoint at hr
  simp only [bind_eq_ok] at hr
  obtain ⟨g1, h1, hr⟩ := hr
  cases hr
  obtain ⟨g1', e1, sb, n1, n2, hv⟩ := Calc.setAdjoints_ok h.furnished (t := ⟨E, p.grid.cells, s.adjoint.modes, s.adjoint.flux⟩) rfl
  rw [h1] at e1
  cases e1
  have ht := part_kept Mesh.Material.total (put := fun x m => { m with adj := x }) (fun _ _ => rfl) h1
  refine ⟨⟨⟨?_, ?_⟩, ⟨?_, fun i hi => ?_⟩, ⟨?_, Or.inr fun i hi => ?_⟩, ?_, hs, ?_⟩, ⟨sb.energies, sb.cells, ht⟩, rfl, rfl⟩
  · show g1.bounds.n = g1.cells + 1
    rw [sb.bounds, sb.cells, h.whole.bounds]
  · exact sb.filled h.whole.mats
  · exact sb.filled h.whole.mats
  · exact (sb.furnished h.furnished).energies i hi
  · show g1.nForward = 0 ∨ ∀ i, i < g1.cells → g1.energies ≤ (g1.mats.v i).flux.r ∧ g1.nForward ≤ (g1.mats.v i).flux.c
    rw [n1, sb.cells, sb.energies]
    refine h.stocked.forward.imp_right fun h' i hi => ?_
    rw [(hv i hi).2.2.1]
    exact h' i hi
  · obtain ⟨-, -, -, a, b, -⟩ := hv i (sb.cells ▸ hi)
    show g1.energies ≤ _ ∧ s.adjoint.modes ≤ _
    rw [a, b, sb.energies]
    exact ⟨hE, le_rfl⟩
  · exact n1.trans h.forward
  · exact sb.cells.symm ▸ h.cells

theorem store_length {cells energies : Nat} {ms : List (Fl × Vec Fl)} {st : Solve.Stored} (h : Solve.store cells energies ms = ok st) :
    st.modes = st.k.length ∧ st.k.length = ms.length := by
  unfold Solve.store at h
  split at h
  · cases h
    simp
  · cases h

theorem eigenmodes_some {num : Solve.Numerics} {op : Solve.Options} {M F : Mat Fl} {ms : List (Fl × Vec Fl)} (hm : op.modes ≠ .undefined)
    (h : Solve.eigenmodes num op M F = ok ms) : ms ≠ [] := by
  unfold Solve.eigenmodes at h
  split at h
  · obtain ⟨r, hr, h⟩ := bind_eq_ok.1 h
    cases h
    unfold Eigen.fundamental at hr
    obtain ⟨x, -, hr⟩ := bind_eq_ok.1 hr
    cases hr
    simp [Eigen.ofMode]
  · obtain ⟨r, hr, h⟩ := bind_eq_ok.1 h
    cases h
    unfold Eigen.generalizedEigenSolver at hr
    obtain ⟨x, -, hr⟩ := bind_eq_ok.1 hr
    cases x with
    | nil => cases hr
    | cons m l =>
      cases hr
      simp
  · rename_i e
    exact absurd e hm

theorem setForward_some {cells energies : Nat} {heat : List (Vec ℝ) → Outcome (Vec ℝ)} {ms : List (Fl × Vec Fl)} {s s' : Solve.State}
    (h : Solve.setForward cells energies heat ms s = ok s') : s'.forward.modes = s'.forward.k.length ∧ s'.forward.k.length = ms.length := by
  unfold Solve.setForward at h
  simp only [bind_eq_ok] at h
  obtain ⟨st, h1, _, _, _, _, h⟩ := h
  cases h
  exact store_length h1

theorem setAdjoint_some {cells energies : Nat} {ms : List (Fl × Vec Fl)} {s s' : Solve.State}
    (h : Solve.setAdjoint cells energies ms s = ok s') : s'.adjoint.modes = s'.adjoint.k.length ∧ s'.adjoint.k.length = ms.length := by
  unfold Solve.setAdjoint at h
  simp only [bind_eq_ok] at h
  obtain ⟨st, h1, h⟩ := h
  cases h
  exact store_length h1

theorem length_some {α β : Type} {k : List α} {ms : List β} (h : k.length = ms.length) (hm : ms ≠ []) : k ≠ [] := by
  rintro rfl
  exact hm (List.length_eq_zero_iff.1 h.symm)

theorem diffusionSolve_forward (h : Sound p) (hE : o.energies = p.grid.energies) (hd : o.direction = .forward) {x : Vec ℝ} (hr : Calc.diffusionSolve t o p = ok (p', x)) :
    Sound p' ∧ Same p p' ∧ p'.kAdjoint = p.kAdjoint ∧ (o.modes ≠ .undefined → p'.kForward ≠ []) := by
  unfold Calc.diffusionSolve at hr
  simp only [bind_eq_ok, hd] at hr
  obtain ⟨old, -, d, -, vol, -, s, hs, p1, h1, hr⟩ := hr
  cases hr
  unfold Solve.diffusion Calc.Settings.options at hs
  simp only [hd, bind_eq_ok] at hs
  obtain ⟨A, -, ms, hm, hs⟩ := hs
  obtain ⟨e1, e2⟩ := setForward_some hs
  obtain ⟨a, b, c, d⟩ := writeForward_sound h hE.ge e1 h1
  exact ⟨a, b, d, fun hu => c ▸ length_some e2 (eigenmodes_some hu hm)⟩

theorem diffusionSolve_adjoint (h : Sound p) (hE : o.energies = p.grid.energies) (hd : o.direction = .adjoint) {x : Vec ℝ} (hr : Calc.diffusionSolve t o p = ok (p', x)) :
    Sound p' ∧ Same p p' ∧ p'.kForward = p.kForward ∧ (o.modes ≠ .undefined → p'.kAdjoint ≠ []) := by
  unfold Calc.diffusionSolve at hr
  simp only [bind_eq_ok, hd] at hr
  obtain ⟨old, -, d, -, vol, -, s, hs, p1, h1, hr⟩ := hr
  cases hr
  unfold Solve.diffusion Calc.Settings.options at hs
  simp only [hd, bind_eq_ok] at hs
  obtain ⟨A, -, ms, hm, hs⟩ := hs
  obtain ⟨e1, e2⟩ := setAdjoint_some hs
  obtain ⟨a, b, c, d⟩ := writeAdjoint_sound h hE.ge e1 h1
  exact ⟨a, b, c, fun hu => d ▸ length_some e2 (eigenmodes_some hu hm)⟩

theorem diffusionSolve_fluxes (hd : o.direction = .adjoint) {x : Vec ℝ} (hr : Calc.diffusionSolve t o p = ok (p', x)) (i : Nat) :
    (p'.grid.mats.v i).flux = (p.grid.mats.v i).flux := by
  unfold Calc.diffusionSolve at hr
  simp only [bind_eq_ok, hd] at hr
  obtain ⟨old, -, d, -, vol, -, s, hs, p1, h1, hr⟩ := hr
  cases hr
  unfold Calc.writeAdjoint at h1
  simp only [bind_eq_ok] at h1
  obtain ⟨g1, h1, hr⟩ := h1
  cases hr
  exact part_kept Mesh.Material.flux (put := fun x m => { m with adj := x }) (fun _ _ => rfl) h1 i

theorem transportSolve_sound (h : Sound p) (hE : o.energies = p.grid.energies) {x : Vec ℝ} (hr : Calc.transportSolve t o p = ok (p', x)) :
    Sound p' ∧ Same p p' ∧ p'.kAdjoint = p.kAdjoint ∧ (o.modes ≠ .undefined → p'.kForward ≠ []) := by
  unfold Calc.transportSolve at hr
  simp only [bind_eq_ok] at hr
  obtain ⟨old, -, d, -, vol, -, s, hs, p1, h1, hr⟩ := hr
  cases hr
  unfold Solve.transport at hs
  simp only [bind_eq_ok] at hs
  obtain ⟨P, -, A, -, ms, hm, hs⟩ := hs
  obtain ⟨e1, e2⟩ := setForward_some hs
  obtain ⟨a, b, c, d⟩ := writeForward_sound h hE.ge e1 h1
  exact ⟨a, b, d, fun hu => c ▸ length_some e2 (eigenmodes_some hu hm)⟩

end

end Verif.Output
