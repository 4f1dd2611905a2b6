import Verif.Input.Compare
import Verif.Input.WallFile

/-! # Comparing heat calculations of one body -/

namespace Verif.Input

open Verif Outcome

noncomputable section

variable {lib lib' lib'' : Lib} {raw lines raw' lines' raw'' lines'' : List Text} {g : Diffusion.Geom} {rs : List Region} {law : Text → Vec ℝ}
  {t q bc t' q' bc' t'' q'' bc'' : Vec ℝ} {acc acc' acc'' m m' m'' AL BL CL CL' CL'' AR BR CR CR' CR'' : ℝ} {f : Nat → ℝ} {n n' n'' : Nat} {tl tl' tl'' : Calc.Tools}

/-! ### C113 -/

/-- **C113.** Two heat calculations of the same body with conductivities that do not depend on the temperature, from two input files to the two results: if the second file gives
no cell less heat and no boundary a smaller right-hand side (a colder surface, a colder fluid or a smaller flux of heat into the body), then both runs end normally, no cell is
colder in the second, and every cell that is given more heat is warmer. The temperatures to start with, the accuracies and the limits of passes do not matter. -/
theorem C113 (hc : Clean lib lines) (hraw : Stored raw lines) (hp : Proper lines) (hf : HeatFile lib lines g rs law t q bc acc n)
    (hcase : HeatCase g rs law t q bc f m AL BL CL AR BR CR) (hlin : Calc.LinSolves tl.lin) (hn : 2 ≤ n) (hacc : 0 < acc)
    (hc' : Clean lib' lines') (hraw' : Stored raw' lines') (hp' : Proper lines') (hf' : HeatFile lib' lines' g rs law t' q' bc' acc' n')
    (hcase' : HeatCase g rs law t' q' bc' f m' AL BL CL' AR BR CR') (hlin' : Calc.LinSolves tl'.lin) (hn' : 2 ≤ n') (hacc' : 0 < acc')
    (hk : ∀ r ∈ rs, (law r.mat).n = 1) (hq : ∀ i, i < (cellNames rs).length → q.v i ≤ q'.v i) (hL : g = .slab → CL ≤ CL') (hR : CR ≤ CR') (p p' : Calc.Plant) :
    ∃ p1 p2, program lib tl (some raw) p = ok p1 ∧ program lib' tl' (some raw') p' = ok p2 ∧
      ∀ i, i < (cellNames rs).length → Calc.temp p1 i ≤ Calc.temp p2 i ∧ (q.v i < q'.v i → Calc.temp p1 i < Calc.temp p2 i) := by
  obtain ⟨p1, e1, -, -, c1⟩ := C85_constant hc hraw hp hf hcase hlin hn hacc hk p
  obtain ⟨p2, e2, -, -, c2⟩ := C85_constant hc' hraw' hp' hf' hcase' hlin' hn' hacc' hk p'
  obtain ⟨b1, b2, b3, b4, b5⟩ := case_body hf.body hcase hk p
  obtain ⟨k1, k2⟩ := Heat.conducted_le hcase.two b1 b2 b3 b4
    ⟨hcase.AL_nonneg, hcase.BL_nonneg, hcase.AR_nonneg, hcase.BR_nonneg, hcase.left, hcase.right, hcase.tied⟩ c1 c2
    (fun i hi => mul_le_mul_of_nonneg_right (hq i hi) (b5 i hi).le) hL hR
  exact ⟨p1, p2, e1, e2, fun i hi => ⟨k1 i hi, fun h => k2 i hi (mul_lt_mul_of_pos_right h (b5 i hi))⟩⟩

/-- water with a source is warmer than water without one, and no cell of the fuel is colder -/
example (num : Solve.Numerics) (p : Calc.Plant) : ∃ p1 p2, program vLib (Calc.exTools num) (some (wallFile "0.0".toList)) p = ok p1 ∧
    program vLib (Calc.exTools num) (some (wallFile "0.5".toList)) p = ok p2 ∧
    Calc.temp p1 0 ≤ Calc.temp p2 0 ∧ Calc.temp p1 1 ≤ Calc.temp p2 1 ∧ Calc.temp p1 2 < Calc.temp p2 2 := by
  have h0 : "0.0".toList ∈ walls := by simp [walls]
  have h1 : "0.5".toList ∈ walls := by simp [walls]
  obtain ⟨p1, p2, e1, e2, h⟩ := C113 (vLib_clean _) (wallStored _ h0) (wallProper _ h0) (wall_heat h0) (wall_case _) (tl := Calc.exTools num) Calc.exLin_solves (by norm_num) (by norm_num)
    (vLib_clean _) (wallStored _ h1) (wallProper _ h1) (wall_heat h1) (wall_case _) (tl' := Calc.exTools num) Calc.exLin_solves (by norm_num) (by norm_num)
    (fun _ _ => rfl)
    (fun i hi => by
      have hi : i < 3 := hi
      interval_cases i <;> simp [wallHeat, Vec.ofList])
    (fun _ => le_rfl) le_rfl p p
  exact ⟨p1, p2, e1, e2, (h 0 (by decide)).1, (h 1 (by decide)).1, (h 2 (by decide)).2 (by simp [wallHeat, Vec.ofList])⟩

/-- **C113.** Superposition: if the sources and the right-hand sides of the boundaries in a third file are a combination of those in two others, so are the temperatures. -/
theorem C113_sum (hc : Clean lib lines) (hraw : Stored raw lines) (hp : Proper lines) (hf : HeatFile lib lines g rs law t q bc acc n)
    (hcase : HeatCase g rs law t q bc f m AL BL CL AR BR CR) (hlin : Calc.LinSolves tl.lin) (hn : 2 ≤ n) (hacc : 0 < acc)
    (hc' : Clean lib' lines') (hraw' : Stored raw' lines') (hp' : Proper lines') (hf' : HeatFile lib' lines' g rs law t' q' bc' acc' n')
    (hcase' : HeatCase g rs law t' q' bc' f m' AL BL CL' AR BR CR') (hlin' : Calc.LinSolves tl'.lin) (hn' : 2 ≤ n') (hacc' : 0 < acc')
    (hc'' : Clean lib'' lines'') (hraw'' : Stored raw'' lines'') (hp'' : Proper lines'') (hf'' : HeatFile lib'' lines'' g rs law t'' q'' bc'' acc'' n'')
    (hcase'' : HeatCase g rs law t'' q'' bc'' f m'' AL BL CL'' AR BR CR'') (hlin'' : Calc.LinSolves tl''.lin) (hn'' : 2 ≤ n'') (hacc'' : 0 < acc'')
    (hk : ∀ r ∈ rs, (law r.mat).n = 1) {a b : ℝ} (hq : ∀ i, i < (cellNames rs).length → q''.v i = a * q.v i + b * q'.v i) (hL : g = .slab → CL'' = a * CL + b * CL')
    (hR : CR'' = a * CR + b * CR') (p p' p'' : Calc.Plant) :
    ∃ p1 p2 p3, program lib tl (some raw) p = ok p1 ∧ program lib' tl' (some raw') p' = ok p2 ∧ program lib'' tl'' (some raw'') p'' = ok p3 ∧
      ∀ i, i < (cellNames rs).length → Calc.temp p3 i = a * Calc.temp p1 i + b * Calc.temp p2 i := by
  obtain ⟨p1, e1, -, -, c1⟩ := C85_constant hc hraw hp hf hcase hlin hn hacc hk p
  obtain ⟨p2, e2, -, -, c2⟩ := C85_constant hc' hraw' hp' hf' hcase' hlin' hn' hacc' hk p'
  obtain ⟨p3, e3, -, -, c3⟩ := C85_constant hc'' hraw'' hp'' hf'' hcase'' hlin'' hn'' hacc'' hk p''
  obtain ⟨b1, b2, b3, b4, b5⟩ := case_body hf.body hcase hk p
  have ha : Heat.Admissible (Heat.dataOf g (cellNames rs).length (fun i => f (i + 1) - f i) (fun i => (law ((cellNames rs).getD i [])).v 0) (fun i => Mesh.area g (f i)) 0) AL BL AR BR :=
    ⟨hcase.AL_nonneg, hcase.BL_nonneg, hcase.AR_nonneg, hcase.BR_nonneg, hcase.left, hcase.right, hcase.tied⟩
  have c := Heat.conducted_lin hcase.two b1 b2 b3 b4 ha a b c1 c2
  have eQ : ∀ i < (cellNames rs).length, q''.v i * (∫ r in (f i)..(f (i + 1)), Mesh.area g r) =
      a * (q.v i * ∫ r in (f i)..(f (i + 1)), Mesh.area g r) + b * (q'.v i * ∫ r in (f i)..(f (i + 1)), Mesh.area g r) := fun i hi => by
    rw [hq i hi]; ring
  have u1 := (Heat.conducted_le hcase.two b1 b2 b3 b4 ha c c3 (fun i hi => (eQ i hi).ge) (fun hg => (hL hg).ge) hR.ge).1
  have u2 := (Heat.conducted_le hcase.two b1 b2 b3 b4 ha c3 c (fun i hi => (eQ i hi).le) (fun hg => (hL hg).le) hR.le).1
  exact ⟨p1, p2, p3, e1, e2, e3, fun i hi => le_antisymm (u2 i hi) (u1 i hi)⟩

/-- twice the source in the water raises the temperatures twice as much -/
example (num : Solve.Numerics) (p : Calc.Plant) : ∃ p1 p2 p3, program vLib (Calc.exTools num) (some (wallFile "0.0".toList)) p = ok p1 ∧
    program vLib (Calc.exTools num) (some (wallFile "0.5".toList)) p = ok p2 ∧ program vLib (Calc.exTools num) (some (wallFile "1.0".toList)) p = ok p3 ∧
    ∀ i, i < 3 → Calc.temp p3 i - Calc.temp p1 i = 2 * (Calc.temp p2 i - Calc.temp p1 i) := by
  have h0 : "0.0".toList ∈ walls := by simp [walls]
  have h1 : "0.5".toList ∈ walls := by simp [walls]
  have h2 : "1.0".toList ∈ walls := by simp [walls]
  obtain ⟨p1, p2, p3, e1, e2, e3, h⟩ := C113_sum (a := -1) (b := 2)
    (vLib_clean _) (wallStored _ h0) (wallProper _ h0) (wall_heat h0) (wall_case _) (tl := Calc.exTools num) Calc.exLin_solves (by norm_num) (by norm_num)
    (vLib_clean _) (wallStored _ h1) (wallProper _ h1) (wall_heat h1) (wall_case _) (tl' := Calc.exTools num) Calc.exLin_solves (by norm_num) (by norm_num)
    (vLib_clean _) (wallStored _ h2) (wallProper _ h2) (wall_heat h2) (wall_case _) (tl'' := Calc.exTools num) Calc.exLin_solves (by norm_num) (by norm_num)
    (fun _ _ => rfl)
    (fun i hi => by
      have hi : i < 3 := hi
      interval_cases i
      · norm_num [wallHeat, Vec.ofList]
      · norm_num [wallHeat, Vec.ofList]
      · simp [wallHeat, Vec.ofList])
    (fun _ => by norm_num) (by norm_num) p p p
  exact ⟨p1, p2, p3, e1, e2, e3, fun i hi => by rw [h i hi]; ring⟩

end

end Verif.Input
