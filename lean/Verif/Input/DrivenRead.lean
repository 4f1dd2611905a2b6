import Verif.Input.CriticalRead

/-!
# From the words of the file of a source-driven calculation to the hypotheses of the calculation
-/

namespace Verif.Input

open Verif Outcome Finset

noncomputable section

variable {lib : Lib} {lines raw : List Text} {g : Diffusion.Geom} {rs : List Region} {E : Nat} {T : Tables} {alb : Vec ℝ} {s : ℝ} {pos e : Nat}

theorem drivenFile_read (hc : Clean lib lines) (hraw : Stored raw lines) (hp : Proper lines) (hf : DrivenFile lib lines g rs E T alb s pos e) (p : Calc.Plant) :
    ∃ r o, readData lib (some raw) p = ok r ∧ r.lines = lines ∧ NeutronRead .ads g rs E T p r o ∧ o.albedo.toList = alb.toList ∧ r.plant.source = (s, pos + 1, e + 1) := by
  obtain ⟨r, o, hr, hl, hN⟩ := neutron_read hc hraw hp (by simp [neutronics]) hf.full hf.data (fun _ => hf.diff) p
  have hok := hN.kind
  have hm : o ∈ r.solvers := by simp [hN.solvers]
  have hpl : Proper r.lines := by rw [hl]; exact hp
  obtain ⟨ws3, c1, c2⟩ := C79_albedo hc.1 hr hpl hm (by rw [hok]; tauto)
  obtain ⟨ws, d1, d2⟩ := C79_source hc.1 hr hpl (by rw [hN.solvers]; simp [hok])
  rw [hok, hl] at c1
  rw [hl] at d1
  have len : ∀ {ws : List Text}, Reads lib ws alb.toList → ws.length = alb.n := fun h => by
    have := List.Forall₂.length_eq h
    simpa [Vec.toList] using this
  have hn : alb.n = 1 ∨ alb.n = 2 := by
    obtain ⟨ws, h1, h2⟩ := hf.albedo
    obtain ⟨ws', h3, h4⟩ := hf.full.settings .ads (by simp [everyone]) "albedo" (by simp [settingsOf])
    obtain rfl := setting_unique h1 h3
    rw [← len h2]
    generalize hkey : "albedo" = key at h4
    cases h4 with
    | oneAlbedo => exact Or.inl rfl
    | twoAlbedos => exact Or.inr rfl
    | _ => exact absurd hkey (by decide)
  refine ⟨r, o, hr, hl, hN, ?_, ?_⟩
  · obtain ⟨ws, h1, h2⟩ := hf.albedo
    obtain rfl := setting_unique c1 h1
    rcases c2 with ⟨-, -, c2⟩ | ⟨-, -, -, c2⟩ | ⟨e, -⟩
    · exact reads_unique c2 h2
    · exact reads_unique c2 h2
    · rw [len h2] at e
      omega
  · obtain ⟨u, v, w, h1, h2, h3, h4⟩ := hf.source
    obtain rfl := setting_unique d1 h1
    rcases d2 with ⟨u', v', w', e1, f1, f2, f3⟩ | ⟨e1, -⟩
    · simp only [List.cons.injEq, and_true] at e1
      obtain ⟨rfl, rfl, rfl⟩ := e1
      rw [h2] at f1
      cases f1
      rw [← f2 _ h3, ← f3 _ h4]
    · simp at e1

end

end Verif.Input
