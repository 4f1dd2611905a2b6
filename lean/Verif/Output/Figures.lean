import Verif.Output.Files

/-!
# Helper lemmas for the output: the calculation with its report, and the names of the figures
-/

namespace Verif.Output

open Verif Outcome

noncomputable section

open scoped Classical

variable {e : Env} {base : Text} {want : List Input.Plot} {p : Calc.Plant} {ls : List Calc.Settings} {x : Report}

/-- the report belongs to the calculation -/
theorem calculate_problem (h : calculate e base want p ls = ok x) : Calc.problem e.tools p ls = ok x.plant := by
  unfold calculate at h
  split at h
  · rename_i o
    unfold Calc.problem
    dsimp only
    split at h
    · rename_i ho
      rw [if_pos ho]
      unfold ads at h
      simp only [bind_eq_ok] at h
      obtain ⟨f, h1, _, _, a, h2, _, _, _, _, r, h3, h4⟩ := h
      cases h4
      unfold Calc.ads
      rw [h1, ok_bind, h2, ok_bind, h3]
    · rename_i ho
      rw [if_neg ho]
      unfold single at h
      simp only [bind_eq_ok] at h
      obtain ⟨a, h1, r, h2, _, _, _, _, _, _, _, _, h4⟩ := h
      cases h4
      unfold Calc.single
      rw [h1, ok_bind, h2, ok_bind]
  · unfold Calc.problem
    dsimp only
    unfold double at h
    simp only [bind_eq_ok] at h
    obtain ⟨c, h1, h⟩ := h
    split at h
    · rename_i hm
      simp only [bind_eq_ok] at h
      obtain ⟨a, h2, b, h3, r, h4, _, _, _, _, _, _, _, _, h5⟩ := h
      cases h5
      unfold Calc.double
      rw [h1, ok_bind, if_pos hm, h2, ok_bind, h3, ok_bind, h4, ok_bind]
    · cases h
  · cases h

/-- the report of the program belongs to the program -/
theorem work_program {disk : Text → Option (List Text)} {input : Text} (h : work e disk input = ok x) :
    Input.program e.lib e.tools (disk input) e.plant = ok x.plant := by
  unfold work at h
  rw [bind_eq_ok] at h
  obtain ⟨r, h1, h2⟩ := h
  unfold Input.program
  rw [h1, ok_bind, calculate_problem h2]

/-- a file name that begins with the name of the case -/
def Named (base : Text) (fs : List Figure) : Prop := ∀ f ∈ fs, base ++ "_".toList <+: f.file

theorem Named.nil : Named base [] := fun _ h => absurd h List.not_mem_nil

theorem Named.append {a b : List Figure} (h1 : Named base a) (h2 : Named base b) : Named base (a ++ b) := fun f hf =>
  (List.mem_append.1 hf).elim (h1 f) (h2 f)

theorem named_group (k : Input.Plot) (n : Nat) : base ++ "_".toList <+: groupFile base k n := by
  unfold groupFile
  simp only [List.append_assoc]
  rw [← List.append_assoc]
  exact List.prefix_append _ _

theorem plot_named {small : List Fl → Fl} {g : Mesh.Grid} {k : Input.Plot} {fs : List Figure} (h : plot small base g k = ok fs) : Named base fs := by
  have hv : ∀ {x y : Vec ℝ}, plotVector base x y k = ok fs → Named base fs := by
    intro x y h
    unfold plotVector at h
    rw [bind_eq_ok] at h
    obtain ⟨m, _, h⟩ := h
    split at h
    · cases h
      exact Named.nil
    · cases h
      intro f hf
      obtain rfl := List.mem_singleton.1 hf
      simp only [List.append_assoc]
      rw [← List.append_assoc]
      exact List.prefix_append _ _
  have hm : ∀ {x : Vec ℝ} {y : Mat Fl}, plotMatrix small base x y k = ok fs → Named base fs := by
    intro x y h
    unfold plotMatrix at h
    split at h
    · split at h
      · cases h
        exact Named.nil
      · cases h
        intro f hf
        obtain ⟨n, -, rfl⟩ := List.mem_map.1 hf
        exact named_group k n
    · cases h
  have hb : ∀ {x : Vec ℝ} {y : Mesh.Box Fl}, plotModes base x y k = ok fs → Named base fs := by
    intro x y h
    unfold plotModes at h
    split at h
    · cases h
      exact Named.nil
    · cases h
      intro f hf
      obtain ⟨n, -, rfl⟩ := List.mem_map.1 hf
      exact named_group k n
  unfold plot at h
  rw [bind_eq_ok] at h
  obtain ⟨xs, _, h⟩ := h
  cases k
  all_goals
    dsimp only at h
    rw [bind_eq_ok] at h
    obtain ⟨y, _, h⟩ := h
    first | exact hv h | exact hm h | exact hb h

theorem plotIf_named {small : List Fl → Fl} {g : Mesh.Grid} {k : Input.Plot} {fs : List Figure} (h : plotIf small base g want k = ok fs) : Named base fs := by
  unfold plotIf at h
  split at h
  · exact plot_named h
  · cases h
    exact Named.nil

theorem plots_named {small : List Fl → Fl} {g : Mesh.Grid} {fs : List Figure} (h : plots small base g want = ok fs) : Named base fs := by
  unfold plots at h
  simp only [bind_eq_ok] at h
  obtain ⟨a, h1, b, h2, c, h3, d, h4, f, h5, h⟩ := h
  cases h
  exact ((((plotIf_named h1).append (plotIf_named h2)).append (plotIf_named h3)).append (plotIf_named h4)).append (plotIf_named h5)

theorem calculate_named (h : calculate e base want p ls = ok x) : Named base x.figures := by
  unfold calculate at h
  split at h
  · split at h
    · unfold ads at h
      simp only [bind_eq_ok] at h
      obtain ⟨f, _, _, _, a, _, _, _, _, _, r, _, h4⟩ := h
      cases h4
      exact Named.nil
    · unfold single at h
      simp only [bind_eq_ok] at h
      obtain ⟨a, _, r, _, _, _, _, _, _, _, f, h3, h4⟩ := h
      cases h4
      exact plots_named h3
  · unfold double at h
    simp only [bind_eq_ok] at h
    obtain ⟨c, _, h⟩ := h
    split at h
    · simp only [bind_eq_ok] at h
      obtain ⟨a, _, b, _, r, _, _, _, _, _, f, h1, g, h2, h5⟩ := h
      cases h5
      exact (plots_named h1).append (plots_named h2)
    · cases h
  · cases h

theorem figures_named {disk : Text → Option (List Text)} {input : Text} : Named (baseName (namePart input)) (figuresOf (work e disk input)) := by
  rcases h : work e disk input with x | _ | _ | _ | _
  · unfold work at h
    rw [bind_eq_ok] at h
    obtain ⟨r, _, h2⟩ := h
    exact calculate_named h2
  all_goals exact Named.nil

end

end Verif.Output
