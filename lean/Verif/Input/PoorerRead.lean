import Verif.Input.CriticalRead
import Verif.Solve.Safe

/-! # Two diffusion problems on one body, for comparisons -/

namespace Verif.Solve

open Verif Outcome Finset

variable {d d' : Diffusion.Data} {aL aR aL' aR' : ℝ}

/-- the k-factors of physical solutions are ordered -/
theorem LessReactive.k_le (R : Regular d aL aR) (R' : Regular d' aL' aR') (w : LessReactive d d' aL aR aL' aR') {k k' : ℝ} {φ φ' : Nat → ℝ}
    (hφ : Physical d.cells d.energies φ) (heq : DiffusionEq d aL aR k φ) (hφ' : Physical d'.cells d'.energies φ') (heq' : DiffusionEq d' aL' aR' k' φ') : k' ≤ k := by
  obtain ⟨sol, St⟩ := R.setting
  have h1 := (loss_inverse R'.sound R'.absorbing).1
  have h2 : Eigen.Eigenpair (d'.cells * d'.energies) (loss d' aL' aR') (fission d') k' φ' := ⟨hφ'.2, (equation_iff R'.sound).2 heq'⟩
  have h3 := hφ'.1
  rw [w.cells, w.energies] at h1 h2 h3
  exact St.k_monotone h1 (fun p q hp hq => w.loss_le R.sound R'.sound R.absorbing hp hq) (fun p q hp hq => w.fission_le R.absorbing hp hq)
    ⟨hφ.2, (equation_iff R.sound).2 heq⟩ hφ.1 h2 h3

end Verif.Solve

namespace Verif.Input

open Verif Outcome Finset

variable {lib : Lib} {lines : List Text} {g : Diffusion.Geom} {rs : List Region} {E : Nat} {T T' : Tables} {alb alb' : Vec ℝ}

/-- the body with the faces `b` -/
theorem onBody_of (hb : BodyFile lib lines g rs) (hw : ∀ q ∈ rs, 0 < q.width) {b : Vec ℝ} (h : Spread (rs.map (fun r => (r.cells, r.width))) b) (p : Calc.Plant) :
    ∃ G, OnBody g rs b G := by
  have hpos : ∀ x ∈ rs.map (fun r => (r.cells, r.width)), 1 ≤ x.1 := fun x hx => by
    obtain ⟨y, hy, rfl⟩ := List.mem_map.1 hx
    exact hb.cells y hy
  have hn : b.n = (cellNames rs).length + 1 := by
    rw [h.1, cellNames_length, List.map_map]
    rfl
  obtain ⟨f0, -, finc⟩ := C32_bounds h (by simpa using hb.some) hpos
  refine ⟨⟨g, b, (cellNames rs).length, 0, 0, 0, p.grid.mats⟩, ⟨?_, hn, fun _ => f0.ge, fun i hi => ?_⟩, rfl, rfl, rfl, hb.cells⟩
  · obtain ⟨c, w, -, hg⟩ := hb.geometry
    rintro rfl
    simp [geometries] at hg
  · have hi : i < (cellNames rs).length := hi
    exact finc (fun x hx => by
      obtain ⟨y, hy, rfl⟩ := List.mem_map.1 hx
      exact hw y hy) i (by omega)

theorem poorer_less (hb : BodyFile lib lines g rs) {x : Nat → ℝ} {b b' : Vec ℝ} {d d' : Diffusion.Data} (h : DiffusionOf g rs E T alb x b d)
    (h' : DiffusionOf g rs E T' alb' x b' d') (hp : ∀ i, i < (cellNames rs).length → Poorer rs E T T' (x i)) (ha0 : alb'.v 0 ≤ alb.v 0) (ha1 : g = .slab → alb'.v 1 ≤ alb.v 1) :
    Solve.LessReactive d d' (if g = .slab then alb.v 0 else 1) (if g = .slab then alb.v 1 else alb.v 0) (if g = .slab then alb'.v 0 else 1) (if g = .slab then alb'.v 1 else alb'.v 0) := by
  have hc := h.cells
  have hc' := h'.cells
  have hm : ∀ {i}, i < d.cells → ∃ q ∈ rs, q.mat = matAt rs i := fun hi => matAt_mem (by rw [← hc]; exact hi)
  have hx : ∀ {i}, i < d.cells → Poorer rs E T T' (x i) := fun hi => hp _ (by rw [← hc]; exact hi)
  have hn : b.n = (cellNames rs).length + 1 := by
    rw [h.faces.1, cellNames_length, List.map_map]
    rfl
  have hbb : ∀ i, i ≤ d.cells → b'.v i = b.v i := fun i hi =>
    (spread_unique (l := rs.map (fun r => (r.cells, r.width))) (by simpa using hb.some) (fun x hx => by
      obtain ⟨r, hr, rfl⟩ := List.mem_map.1 hx
      exact hb.cells r hr) h'.faces h.faces).2 i (by omega)
  refine ⟨by rw [hc, hc'], by rw [h.energies, h'.energies], fun i hi => ?_, fun i hi => ?_, fun i hi => ?_, fun e i he hi => ?_, fun e i he hi => ?_, fun e f i he hf hi => ?_,
    fun e f i he hf hi => ?_, ?_, ?_⟩
  · rw [h.vol i hi, h'.vol i (by omega), hbb i hi.le, hbb (i + 1) hi]
  · rw [h.surf i hi, h'.surf i (by omega), hbb i hi]
  · rw [h.size i hi, h'.size i (by omega), hbb i hi.le, hbb (i + 1) hi]
  all_goals try rw [h.energies] at he
  all_goals try rw [h.energies] at hf
  · rw [h.D e i he hi, h'.D e i he (by omega)]
    obtain ⟨q, hq, e'⟩ := hm hi
    rw [← e']; exact (hx hi).diff q hq e he
  · rw [h.tot e i he hi, h'.tot e i he (by omega)]
    obtain ⟨q, hq, e'⟩ := hm hi
    rw [← e']; exact (hx hi).tot q hq e he
  · rw [h.scatt e f i he hf hi, h'.scatt e f i he hf (by omega)]
    obtain ⟨q, hq, e'⟩ := hm hi
    rw [← e']; exact (hx hi).scatt q hq e f he hf
  · rw [h.chi e i he hi, h'.chi e i he (by omega), h.nu f i hf hi, h'.nu f i hf (by omega), h.fiss f i hf hi, h'.fiss f i hf (by omega)]
    obtain ⟨q, hq, e'⟩ := hm hi
    rw [← e']; exact (hx hi).emission q hq e f he hf
  · split_ifs
    · exact ha0
    · exact le_rfl
  · split_ifs with hg
    · exact ha1 hg
    · exact ha0

end Verif.Input
