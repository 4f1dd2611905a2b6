import Verif.Mesh.Props

/-! # Tables taken from a mesh with complete data -/

namespace Verif.Mesh

open Verif Outcome Finset

noncomputable section

theorem get_tables {M : Grid} (hM : Furnished M) (hc : ∀ i, i < M.cells → Complete (M.mats.v i) M.energies) :
    (∃ tot, tots M = ok tot ∧ tot.r = M.energies ∧ tot.c = M.cells ∧ ∀ g, g < M.energies → ∀ i, i < M.cells →
      tot.m g i = law (M.mats.v i).tot (M.mats.v i).T g) ∧
    (∃ fiss, fissions M = ok fiss ∧ fiss.r = M.energies ∧ fiss.c = M.cells ∧ ∀ g, g < M.energies → ∀ i, i < M.cells →
      fiss.m g i = law (M.mats.v i).fiss (M.mats.v i).T g) ∧
    (∃ nu, nus M = ok nu ∧ nu.r = M.energies ∧ nu.c = M.cells ∧ ∀ g, g < M.energies → ∀ i, i < M.cells →
      nu.m g i = law (M.mats.v i).nu (M.mats.v i).T g) ∧
    (∃ chi, chis M = ok chi ∧ chi.r = M.energies ∧ chi.c = M.cells ∧ ∀ g, g < M.energies → ∀ i, i < M.cells →
      chi.m g i = law (M.mats.v i).chi (M.mats.v i).T g) ∧
    (∃ s, scatts M = ok s ∧ ∀ g, g < M.energies → ∀ h, h < M.energies → ∀ i, i < M.cells →
      s.v g h i = law (M.mats.v i).scatt (M.mats.v i).T (h + g * M.energies)) := by
  obtain ⟨g1, g2, -, g4, g5⟩ := C39_tables hM
  refine ⟨g1 (fun i hi => (hc i hi).tot), g2 (fun i hi => (hc i hi).fiss), g4 (fun i hi => (hc i hi).nu),
    g5 (fun i hi => (hc i hi).chi), ?_⟩
  obtain ⟨s, e, -, -, -, v⟩ := scatts_ok hM (fun i hi => (hc i hi).scatt)
  exact ⟨s, e, v⟩

end

end Verif.Mesh
