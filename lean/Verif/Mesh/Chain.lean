import Verif.Mesh.GlueProps
import Verif.CPM.Props

/-! # From a mesh to the balance of its collision probabilities -/

namespace Verif.Mesh

open Verif Outcome Finset

noncomputable section

/-- The mesh and its materials are fit for a transport calculation with albedo `a`. -/
structure Fit (M : Grid) (a : ℝ) : Prop where
  shaped : Shaped M
  furnished : Furnished M
  cells : 0 < M.cells
  complete : ∀ i, i < M.cells → Complete (M.mats.v i) M.energies
  albedo : 0 ≤ a ∧ a ≤ 1
  tot_pos : ∀ g i, g < M.energies → i < M.cells → 0 < law (M.mats.v i).tot (M.mats.v i).T g
  scatt_nonneg : ∀ n i, n < M.energies * M.energies → i < M.cells → 0 ≤ law (M.mats.v i).scatt (M.mats.v i).T n
  absorbs : ∀ g i, g < M.energies → i < M.cells →
    ∑ h ∈ range M.energies, law (M.mats.v i).scatt (M.mats.v i).T (h + g * M.energies) < law (M.mats.v i).tot (M.mats.v i).T g

theorem exGrid_fit {g : Diffusion.Geom} (hg : g ≠ .undefined) {a : ℝ} (h0 : 0 ≤ a) (h1 : a ≤ 1) : Fit (exGrid g) a := by
  have hT : ∀ i : ℕ, (0 : ℝ) ≤ 100 * (i + 1) := fun i => by positivity
  exact ⟨exGrid_shaped hg, exGrid_furnished, by norm_num [exGrid], fun i _ => exMat_complete _, ⟨h0, h1⟩,
    fun k i hk _ => (exMat_physical (hT i)).1 k hk, fun n i hn _ => (exMat_physical (hT i)).2.1 n hn,
    fun k i hk _ => (exMat_physical (hT i)).2.2 k hk⟩

/-- all steps up to the balance -/
theorem balance_chain {M : Grid} {a : ℝ} (f : Fit M a) :
    ∃ d G p B, transportData M M.energies ⟨1, fun _ => a⟩ = ok d ∧ CPM.vacuumCPs d CPM.E3 CPM.Ki3 M.geom = ok G ∧
      CPM.applyBC d G = ok p ∧ CPM.balanceCheck d p = ok B ∧ Solve.Body d M.geom ∧ CPM.Sound d G ∧ d.cells = M.cells ∧
      d.energies = M.energies ∧ (∀ i, d.radii.v i = 100 * M.bounds.v i) ∧
      (∀ S, externalSurface M "cm" = ok S → d.surface = S) ∧ ∀ h i, h < M.energies → i < M.cells →
        B.m h i = 1 - CPM.escape d G.v h i * (1 - a) / (1 - a * CPM.crossing d d.surface (CPM.escape d G.v h) h) ∧
        0 < 1 - a * CPM.crossing d d.surface (CPM.escape d G.v h) h := by
  obtain ⟨d, e, B, hc, hE, hal, hr, -, -⟩ := C73_transport f.shaped f.furnished f.cells f.complete (alb := ⟨1, fun _ => a⟩) one_pos
    f.albedo f.tot_pos f.scatt_nonneg f.absorbs
  have ha : d.albedo.v 0 = a := by rw [hal]
  obtain ⟨G, eG, s⟩ := CPM.vacuum_sound B.wf B.pos B.mesh B.cells
  have hden : ∀ h, h < d.energies → 0 < 1 - CPM.crossing d d.surface (CPM.escape d G.v h) h * d.albedo.v 0 :=
    fun h hh => CPM.den_pos B.pos s hh (by rw [ha]; exact f.albedo.1) (by rw [ha]; exact f.albedo.2)
  obtain ⟨p, b, ep, eb, hv⟩ := CPM.C19_balance B.wf (fun h hh i hi => (B.pos.tot_pos h hh i hi).ne') B.pos.surface_pos.ne' s.dom
    (fun h hh => (hden h hh).ne')
  refine ⟨d, G, p, b, e, eG, ep, eb, B, s, hc, hE, hr, fun S hS => ?_, fun h i hh hi => ?_⟩
  · unfold transportData at e
    obtain ⟨V, -, e⟩ := bind_eq_ok.1 e
    obtain ⟨T, -, e⟩ := bind_eq_ok.1 e
    rw [hS, ok_bind] at e
    obtain ⟨s, -, e⟩ := bind_eq_ok.1 e
    obtain ⟨_, -, e⟩ := bind_eq_ok.1 e
    obtain ⟨_, -, e⟩ := bind_eq_ok.1 e
    obtain ⟨_, -, e⟩ := bind_eq_ok.1 e
    cases e
    rfl
  · rw [← hE] at hh
    rw [← hc] at hi
    have h1 := (hv h i hh hi).1
    have h2 := hden h hh
    rw [ha] at h1 h2
    exact ⟨h1, by rw [mul_comm]; exact h2⟩

end

end Verif.Mesh
