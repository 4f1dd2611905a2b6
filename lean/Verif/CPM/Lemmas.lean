import Verif.CPM.Model
import Verif.CPM.Spec
import Verif.CPM.SlabLemmas
import Verif.Core.Fills
import Verif.Core.Lemmas
import Verif.Diffusion.Lemmas
import Mathlib.Algebra.BigOperators.Field
import Mathlib.Tactic.FieldSimp
import Mathlib.Tactic.Ring
import Mathlib.Tactic.Linarith

/-! Helper lemmas: boundary conditions and matrices of the transport code in closed form. -/

namespace Verif.CPM

open Verif Outcome Finset

noncomputable section

variable {d : Data}

/-! ### boundary conditions -/

theorem reduce_maps (wf : WellFormed d) {h : Nat} (hh : h < d.energies) (ht : ∀ i, i < d.cells → d.tot.m h i ≠ 0) :
    Maps (ArrGood (D3 d)) (fun A : Ten3 => A.v) (reduce d h)
      (fun x => x.1 < d.cells ∧ x.2.1 < d.cells ∧ x.2.2 = h) (fun x o => o / d.tot.m h x.2.1) := by
  classical
  have w1 := wf.tot_r
  have w2 := wf.tot_c
  unfold reduce
  refine (Maps.loop (S := fun i x => ∃ j, j < d.cells ∧ x = (i, j, h)) (fun i hi =>
    Maps.loop (S := fun j x => x = (i, j, h)) (fun j hj => ?_) ?_) ?_).congr (fun _ _ => rfl) ?_
  · refine (Maps.arrSet (p := (i, j, h)) (u := fun A => A.v (i, j, h) / d.tot.m h j) ⟨hi, hj, hh⟩ (fun A _ => rfl)).congr ?_
      (fun _ => Iff.rfl)
    intro A gA
    rw [Arr.get_ok (by rw [show A.dom = D3 d from gA]; exact ⟨hi, hj, hh⟩), ok_bind, Mat.get_ok (by omega) (by omega), ok_bind,
      fdiv_ok (ht j hj), ok_bind]
  · rintro a b x hab _ rfl h'
    simp only [Prod.mk.injEq] at h'
    omega
  · rintro a b x hab _ ⟨j, _, rfl⟩ ⟨j', _, h'⟩
    simp only [Prod.mk.injEq] at h'
    omega
  · rintro ⟨a, b, e⟩
    constructor
    · rintro ⟨i, hi, j, hj, h'⟩
      simp only [Prod.mk.injEq] at h'
      obtain ⟨rfl, rfl, rfl⟩ := h'
      exact ⟨hi, hj, rfl⟩
    · rintro ⟨h1, h2, h3⟩
      have : e = h := h3
      subst this
      exact ⟨a, h1, b, h2, rfl⟩

theorem escapes_ok (wf : WellFormed d) {h : Nat} (hh : h < d.energies) (hS : d.surface ≠ 0) {G : Ten3} (hG : G.dom = D3 d) :
    ∃ E, escapes d h G = ok E ∧ E.1.n = d.cells ∧ E.2.n = d.cells ∧
      (∀ i, i < d.cells → E.1.v i = 1 - ∑ j ∈ range d.cells, G.v (i, j, h) * d.tot.m h j) ∧
      (∀ i, i < d.cells → E.2.v i = 4 * d.vol.v i / d.surface * (1 - ∑ j ∈ range d.cells, G.v (i, j, h) * d.tot.m h j)) := by
  have w1 := wf.tot_r
  have w2 := wf.tot_c
  have w3 := wf.vol_n
  unfold escapes
  obtain ⟨E, hE, i1, i2, -, i3, i4⟩ := loop_inv (n := d.cells) (s := ((Vec.const d.cells 0 : Vec ℝ), (Vec.const d.cells 0 : Vec ℝ)))
    (body := fun i (s : Vec ℝ × Vec ℝ) => do
    let P ← loop (fun j (P : Vec ℝ) => do
      let p ← P.get i
      let g ← G.get (i, j, h)
      let t ← d.tot.get h j
      P.set i (p + g * t)) d.cells s.1
    let p ← P.get i
    let P ← P.set i (1 - p)
    let v ← d.vol.get i
    let q ← fdiv (4 * v) d.surface
    let p ← P.get i
    let psi ← s.2.set i (q * p)
    ok (P, psi))
    (fun i s => s.1.n = d.cells ∧ s.2.n = d.cells ∧ (∀ j, i ≤ j → s.1.v j = 0) ∧
      (∀ j, j < i → s.1.v j = 1 - ∑ l ∈ range d.cells, G.v (j, l, h) * d.tot.m h l) ∧
      (∀ j, j < i → s.2.v j = 4 * d.vol.v j / d.surface * (1 - ∑ l ∈ range d.cells, G.v (j, l, h) * d.tot.m h l)))
    ⟨rfl, rfl, fun _ _ => rfl, fun _ h => by omega, fun _ h => by omega⟩ (by
      rintro i ⟨A, B⟩ hi ⟨a1, a2, a3, a4, a5⟩
      dsimp only at a1 a2 a3 a4 a5 ⊢
      obtain ⟨P, eP, p1, p2, p3⟩ := loop_inv (n := d.cells) (s := A) (body := fun j (P : Vec ℝ) => do
          let p ← P.get i
          let g ← G.get (i, j, h)
          let t ← d.tot.get h j
          P.set i (p + g * t))
        (fun j P => P.n = d.cells ∧ (∀ l, l ≠ i → P.v l = A.v l) ∧ P.v i = ∑ l ∈ range j, G.v (i, l, h) * d.tot.m h l)
        ⟨a1, fun _ _ => rfl, by rw [a3 i le_rfl]; simp⟩ (by
          rintro j P hj ⟨q1, q2, q3⟩
          rw [Vec.get_ok (by omega), ok_bind, Arr.get_ok (by rw [hG]; exact ⟨hi, hj, hh⟩), ok_bind,
            Mat.get_ok (by omega) (by omega), ok_bind, Vec.set_ok (by omega)]
          refine ⟨_, rfl, q1, ?_, ?_⟩
          · intro l hl
            dsimp only
            rw [Function.update_of_ne hl, q2 l hl]
          · dsimp only
            rw [Function.update_self, q3, sum_range_succ])
      rw [eP, ok_bind, Vec.get_ok (by omega), ok_bind, Vec.set_ok (by omega), ok_bind, Vec.get_ok (by omega), ok_bind, fdiv_ok hS,
        ok_bind, Vec.get_ok (by dsimp only; omega), ok_bind, Vec.set_ok (by omega), ok_bind]
      refine ⟨_, rfl, p1, a2, ?_, ?_, ?_⟩
      · intro j hj
        dsimp only
        rw [Function.update_of_ne (by omega), p2 j (by omega), a3 j (by omega)]
      · intro j hj
        dsimp only
        by_cases hji : j = i
        · subst hji; rw [Function.update_self, p3]
        · rw [Function.update_of_ne hji, p2 j hji, a4 j (by omega)]
      · intro j hj
        dsimp only
        by_cases hji : j = i
        · subst hji; rw [Function.update_self, Function.update_self, p3]
        · rw [Function.update_of_ne hji, a5 j (by omega)])
  exact ⟨E, hE, i1, i2, i3, i4⟩

/-- the reduced probabilities after the boundary conditions -/
def bcVal (d : Data) (P : ℕ × ℕ × ℕ → ℝ) (h i j : Nat) : ℝ :=
  P (i, j, h) / d.tot.m h j + escape d P h i * (4 * d.vol.v j / d.surface * escape d P h j) *
    (d.albedo.v 0 / (1 - crossing d d.surface (escape d P h) h * d.albedo.v 0))

theorem whiteGroup_ok (wf : WellFormed d) {h : Nat} (hh : h < d.energies) (ht : ∀ i, i < d.cells → d.tot.m h i ≠ 0)
    (hS : d.surface ≠ 0) {P : ℕ × ℕ × ℕ → ℝ} (hB : 1 - crossing d d.surface (escape d P h) h * d.albedo.v 0 ≠ 0) {G : Ten3}
    (hG : G.dom = D3 d) (hP : ∀ i j, i < d.cells → j < d.cells → G.v (i, j, h) = P (i, j, h)) :
    ∃ G', whiteGroup d h G = ok G' ∧ G'.dom = D3 d ∧
      (∀ i j, i < d.cells → j < d.cells → G'.v (i, j, h) = bcVal d P h i j * d.tot.m h j) ∧
      (∀ x, ¬ (x.1 < d.cells ∧ x.2.1 < d.cells ∧ x.2.2 = h) → G'.v x = G.v x) := by
  classical
  have w0 := wf.albedo_n
  have w1 := wf.tot_r
  have w2 := wf.tot_c
  obtain ⟨G1, e1, g1, v1⟩ := reduce_maps wf hh ht G hG
  obtain ⟨E, eE, n1, n2, E1, E2⟩ := escapes_ok wf hh hS g1
  have hrow : ∀ i, i < d.cells → 1 - ∑ j ∈ range d.cells, G1.v (i, j, h) * d.tot.m h j = escape d P h i := by
    intro i hi
    unfold escape
    congr 1
    refine sum_congr rfl (fun j hj => ?_)
    rw [mem_range] at hj
    rw [show G1.v (i, j, h) = G.v (i, j, h) / d.tot.m h j from (v1 (i, j, h)).1 ⟨hi, hj, rfl⟩, hP i j hi hj,
      div_mul_cancel₀ _ (ht j hj)]
  have hs := loop_sum (fun i => E.2.v i * d.tot.m h i) d.cells (0 : ℝ) (fun i s => do
    let p ← E.2.get i
    let t ← d.tot.get h i
    ok (s + p * t)) (fun i t hi => by
      rw [Vec.get_ok (by omega), ok_bind, Mat.get_ok (by omega) (by omega), ok_bind])
  have hcr : 1 - (0 + ∑ i ∈ range d.cells, E.2.v i * d.tot.m h i) = crossing d d.surface (escape d P h) h := by
    unfold crossing
    rw [zero_add]
    congr 1
    refine sum_congr rfl (fun i hi => ?_)
    rw [mem_range] at hi
    rw [E2 i hi, hrow i hi]
    ring
  unfold whiteGroup
  rw [Vec.get_ok w0, ok_bind]
  rw [e1, ok_bind, eE, ok_bind, hs, ok_bind, hcr]
  have key : Maps (ArrGood (D3 d)) (fun A : Ten3 => A.v) (fun G => loop (fun i G => loop (fun j (G : Ten3) => do
    let g ← G.get (i, j, h)
    let p ← E.1.get i
    let y ← E.2.get j
    let q ← fdiv (d.albedo.v 0) (1 - crossing d d.surface (escape d P h) h * d.albedo.v 0)
    let G ← G.set (i, j, h) (g + p * y * q)
    let x ← G.get (i, j, h)
    let t ← d.tot.get h j
    G.set (i, j, h) (x * t)) d.cells G) d.cells G) (fun x => ∃ i, i < d.cells ∧ ∃ j, j < d.cells ∧ x = (i, j, h))
      (fun x o => (o + E.1.v x.1 * E.2.v x.2.1 *
        (d.albedo.v 0 / (1 - crossing d d.surface (escape d P h) h * d.albedo.v 0))) * d.tot.m h x.2.1) := by
    refine Maps.loop (fun i hi => Maps.loop (S := fun j x => x = (i, j, h)) (fun j hj => ?_) ?_) ?_
    · intro A gA
      have hd : A.dom (i, j, h) := by rw [show A.dom = D3 d from gA]; exact ⟨hi, hj, hh⟩
      dsimp only
      rw [Arr.get_ok hd, ok_bind, Vec.get_ok (by omega), ok_bind, Vec.get_ok (by omega), ok_bind, fdiv_ok hB, ok_bind,
        Arr.set_ok hd, ok_bind, Arr.get_ok (by exact hd), ok_bind, Mat.get_ok (by omega) (by omega), ok_bind,
        Arr.set_ok (by exact hd)]
      refine ⟨_, rfl, gA, fun x => ⟨?_, ?_⟩⟩
      · rintro rfl
        simp only [if_true]
      · intro hx
        simp only [if_neg hx]
    · rintro a b x hab _ rfl h'
      simp only [Prod.mk.injEq] at h'
      omega
    · rintro a b x hab _ ⟨j, _, rfl⟩ ⟨j', _, h'⟩
      simp only [Prod.mk.injEq] at h'
      omega
  obtain ⟨G2, e2, g2, v2⟩ := key G1 g1
  refine ⟨G2, e2, g2, ?_, ?_⟩
  · intro i j hi hj
    refine ((v2 (i, j, h)).1 ⟨i, hi, j, hj, rfl⟩).trans ?_
    dsimp only
    rw [show G1.v (i, j, h) = G.v (i, j, h) / d.tot.m h j from (v1 (i, j, h)).1 ⟨hi, hj, rfl⟩, hP i j hi hj, E1 i hi, E2 j hj,
      hrow i hi, hrow j hj]
    rfl
  · intro x hx
    refine ((v2 x).2 ?_).trans ((v1 x).2 hx)
    rintro ⟨i, hi, j, hj, rfl⟩
    exact hx ⟨hi, hj, rfl⟩

theorem applyBC_ok (wf : WellFormed d) (ht : ∀ h, h < d.energies → ∀ i, i < d.cells → d.tot.m h i ≠ 0)
    (hS : d.surface ≠ 0) {G : Ten3} (hG : G.dom = D3 d)
    (hB : ∀ h, h < d.energies → 1 - crossing d d.surface (escape d G.v h) h * d.albedo.v 0 ≠ 0) :
    ∃ G', applyBC d G = ok G' ∧ G'.dom = D3 d ∧
      ∀ h i j, h < d.energies → i < d.cells → j < d.cells → G'.v (i, j, h) = bcVal d G.v h i j := by
  unfold applyBC
  obtain ⟨G1, e1, g1, v1, -⟩ := loop_inv (n := d.energies) (s := G) (body := fun h G => whiteGroup d h G)
    (fun h A => A.dom = D3 d ∧
      (∀ h' i j, h' < h → i < d.cells → j < d.cells → A.v (i, j, h') = bcVal d G.v h' i j * d.tot.m h' j) ∧
      (∀ x, h ≤ x.2.2 → A.v x = G.v x)) ⟨hG, fun _ _ _ h => by omega, fun _ _ => rfl⟩ (by
      rintro h A hh ⟨a1, a2, a3⟩
      obtain ⟨A', e, b1, b2, b3⟩ := whiteGroup_ok wf hh (ht h hh) hS (hB h hh) a1 (fun i j _ _ => a3 (i, j, h) le_rfl)
      refine ⟨A', e, b1, ?_, ?_⟩
      · intro h' i j hh' hi hj
        by_cases heq : h' = h
        · subst heq; exact b2 i j hi hj
        · rw [b3 (i, j, h') (fun hx => heq hx.2.2), a2 h' i j (by omega) hi hj]
      · rintro ⟨a, b, e'⟩ hx
        have hx' : h + 1 ≤ e' := hx
        rw [b3 _ (fun h' => by have := h'.2.2; simp only at this; omega), a3 _ (by show h ≤ e'; omega)])
  rw [e1, ok_bind]
  obtain ⟨G2, e2, g2, v2, -⟩ := loop_inv (n := d.energies) (s := G1) (body := fun h G => reduce d h G)
    (fun h A => A.dom = D3 d ∧
      (∀ h' i j, h' < h → i < d.cells → j < d.cells → A.v (i, j, h') = bcVal d G.v h' i j) ∧
      (∀ x, h ≤ x.2.2 → A.v x = G1.v x)) ⟨g1, fun _ _ _ h => by omega, fun _ _ => rfl⟩ (by
      rintro h A hh ⟨a1, a2, a3⟩
      obtain ⟨A', e, b1, b2⟩ := reduce_maps wf hh (ht h hh) A a1
      refine ⟨A', e, b1, ?_, ?_⟩
      · intro h' i j hh' hi hj
        by_cases heq : h' = h
        · subst heq
          refine ((b2 (i, j, h')).1 ⟨hi, hj, rfl⟩).trans ?_
          dsimp only
          rw [a3 (i, j, h') le_rfl, v1 h' i j hh hi hj, mul_div_cancel_right₀ _ (ht h' hh j hj)]
        · exact ((b2 (i, j, h')).2 (fun hx => heq hx.2.2)).trans (a2 h' i j (by omega) hi hj)
      · rintro ⟨a, b, e'⟩ hx
        have hx' : h + 1 ≤ e' := hx
        exact ((b2 _).2 (fun h' => by have := h'.2.2; simp only at this; omega)).trans (a3 _ (by show h ≤ e'; omega)))
  exact ⟨G2, e2, g2, fun h i j hh hi hj => v2 h i j hh hi hj⟩

/-! ### matrices -/

theorem balanceCheck_ok (wf : WellFormed d) {G : Ten3} (hG : G.dom = D3 d) :
    ∃ B, balanceCheck d G = ok B ∧ ∀ h i, h < d.energies → i < d.cells →
      B.m h i = ∑ j ∈ range d.cells, G.v (i, j, h) * d.tot.m h j := by
  have w1 := wf.tot_r
  have w2 := wf.tot_c
  have key : Fills (MatGood d.energies d.cells) (matV (K := ℝ)) (fun _ => False) (fun M => loop (fun h M => loop (fun i (M : Mat ℝ) => do
    let c ← loop (fun j (c : ℝ) => do
      let g ← G.get (i, j, h)
      let t ← d.tot.get h j
      ok (c + g * t)) d.cells 0
    M.set h i c) d.cells M) d.energies M) (fun x => ∃ h, h < d.energies ∧ ∃ i, i < d.cells ∧ x = (h, i))
      (fun x => ∑ j ∈ range d.cells, G.v (x.2, j, x.1) * d.tot.m x.1 j) := by
    refine Fills.loop (fun h hh => Fills.loop (S := fun i x => x = (h, i)) (fun i hi => ?_))
    refine (Fills.matSet (p := h) (q := i) (a := 0 + ∑ j ∈ range d.cells, G.v (i, j, h) * d.tot.m h j) hh hi (zero_add _)).congr ?_
      (fun _ => Iff.rfl)
    intro M _ _
    rw [loop_sum (fun j => G.v (i, j, h) * d.tot.m h j) d.cells (0 : ℝ) _ (fun j t hj => by
      rw [Arr.get_ok (by rw [hG]; exact ⟨hi, hj, hh⟩), ok_bind, Mat.get_ok (by omega) (by omega), ok_bind]), ok_bind]
  obtain ⟨B, eB, -, vB⟩ := key (Mat.zero d.energies d.cells) ⟨rfl, rfl⟩ (fun _ h => h.elim)
  refine ⟨B, eB, fun h i hh hi => ?_⟩
  exact (vB (h, i)).1 ⟨h, hh, i, hi, rfl⟩

theorem cpmMatrix_ok {G : Ten3} (hG : G.dom = D3 d) :
    ∃ C, cpmMatrix d G = ok C ∧ C.r = d.cells * d.energies ∧ C.c = d.cells * d.energies ∧
      ∀ g h i j, g < d.energies → h < d.energies → i < d.cells → j < d.cells →
        C.m (i + g * d.cells) (j + h * d.cells) = if g = h then G.v (i, j, g) else 0 := by
  set N := d.cells * d.energies with hN
  have key : Fills (MatGood N N) (matV (K := ℝ)) (fun _ => False) (fun C => loop (fun k C => loopFrom (k * d.cells) (fun j C =>
    loopFrom (k * d.cells) (fun i (C : Mat ℝ) => do
    let g ← G.get (i - k * d.cells, j - k * d.cells, k)
    C.set i j g) d.cells C) d.cells C) d.energies C)
      (fun x => ∃ k, k < d.energies ∧ ∃ j, k * d.cells ≤ j ∧ j < k * d.cells + d.cells ∧
        ∃ i, k * d.cells ≤ i ∧ i < k * d.cells + d.cells ∧ x = (i, j))
      (fun x => G.v (x.1 % d.cells, x.2 % d.cells, x.1 / d.cells)) := by
    refine Fills.loop (fun k hk => Fills.loopFrom (S := fun j x => ∃ i, k * d.cells ≤ i ∧ i < k * d.cells + d.cells ∧ x = (i, j))
      (fun j hj1 hj2 => Fills.loopFrom (S := fun i x => x = (i, j)) (fun i hi1 hi2 => ?_)))
    obtain ⟨i, rfl⟩ : ∃ i', i = i' + k * d.cells := ⟨i - k * d.cells, by omega⟩
    obtain ⟨j, rfl⟩ : ∃ j', j = j' + k * d.cells := ⟨j - k * d.cells, by omega⟩
    have hi : i < d.cells := by omega
    have hj : j < d.cells := by omega
    refine (Fills.matSet (p := i + k * d.cells) (q := j + k * d.cells) (a := G.v (i, j, k)) (flat_lt hi hk) (flat_lt hj hk) ?_).congr
      ?_ (fun _ => Iff.rfl)
    · dsimp only
      rw [flat_mod hi, flat_mod hj, flat_div hi]
    · intro C _ _
      rw [show i + k * d.cells - k * d.cells = i by omega, show j + k * d.cells - k * d.cells = j by omega,
        Arr.get_ok (by rw [hG]; exact ⟨hi, hj, hk⟩), ok_bind]
  obtain ⟨C, eC, gC, vC⟩ := key (Mat.zero N N) ⟨rfl, rfl⟩ (fun _ h => h.elim)
  refine ⟨C, eC, gC.1, gC.2, ?_⟩
  intro g h i j hg hh hi hj
  by_cases hgh : g = h
  · subst hgh
    rw [if_pos rfl]
    refine ((vC (i + g * d.cells, j + g * d.cells)).1 ⟨g, hg, _, by omega, by omega, _, by omega, by omega, rfl⟩).trans ?_
    dsimp only
    rw [flat_mod hi, flat_mod hj, flat_div hi]
  · rw [if_neg hgh]
    refine ((vC (i + g * d.cells, j + h * d.cells)).2 ?_).trans rfl
    rintro ⟨k, hk, y, y1, y2, x, x1, x2, e⟩
    simp only [Prod.mk.injEq] at e
    obtain ⟨rfl, rfl⟩ := e
    have a : g = k := by
      obtain ⟨t, ht⟩ : ∃ t, i + g * d.cells = t + k * d.cells := ⟨i + g * d.cells - k * d.cells, by omega⟩
      exact ((flat_inj hi (show t < d.cells by omega)).1 ht).2
    have b : h = k := by
      obtain ⟨t, ht⟩ : ∃ t, j + h * d.cells = t + k * d.cells := ⟨j + h * d.cells - k * d.cells, by omega⟩
      exact ((flat_inj hj (show t < d.cells by omega)).1 ht).2
    exact hgh (a.trans b.symm)

theorem matMul_ok {A B : Mat ℝ} (h : A.c = B.r) :
    matMul A B = ok ⟨A.r, B.c, fun p q => ∑ x ∈ range A.c, A.m p x * B.m x q⟩ := if_pos h

theorem scatter_ok (d : Data) :
    ∃ S, loop (fun k S => loop (fun j S => loop (fun i (S : Mat ℝ) => do
    let s ← d.scattGet (j % d.energies) ((k + j) % d.energies) i
    S.set (i + (k + j) % d.energies * d.cells) (i + j * d.cells) s) d.cells S) d.energies S) d.energies
    (Mat.zero (d.cells * d.energies) (d.cells * d.energies)) = ok S ∧
      S.r = d.cells * d.energies ∧ S.c = d.cells * d.energies ∧
      ∀ g h i j, g < d.energies → h < d.energies → i < d.cells → j < d.cells →
        S.m (i + g * d.cells) (j + h * d.cells) = if i = j then d.scatt h g i else 0 := by
  set N := d.cells * d.energies with hN
  have key : Fills (MatGood N N) (matV (K := ℝ)) (fun _ => False) (fun S => loop (fun k S => loop (fun j S => loop (fun i (S : Mat ℝ) => do
    let s ← d.scattGet (j % d.energies) ((k + j) % d.energies) i
    S.set (i + (k + j) % d.energies * d.cells) (i + j * d.cells) s) d.cells S) d.energies S) d.energies S)
      (fun x => ∃ k, k < d.energies ∧ ∃ j, j < d.energies ∧ ∃ i, i < d.cells ∧
        x = (i + (k + j) % d.energies * d.cells, i + j * d.cells))
      (fun x => d.scatt (x.2 / d.cells) (x.1 / d.cells) (x.1 % d.cells)) := by
    refine Fills.loop (fun k hk => Fills.loop (fun j hj =>
      Fills.loop (S := fun i x => x = (i + (k + j) % d.energies * d.cells, i + j * d.cells)) (fun i hi => ?_)))
    have hm : (k + j) % d.energies < d.energies := Nat.mod_lt _ (by omega)
    refine (Fills.matSet (p := i + (k + j) % d.energies * d.cells) (q := i + j * d.cells)
      (a := d.scatt j ((k + j) % d.energies) i) (flat_lt hi hm) (flat_lt hi hj) ?_).congr ?_ (fun _ => Iff.rfl)
    · dsimp only
      rw [flat_div hi, flat_div hi, flat_mod hi]
    · intro S _ _
      unfold Data.scattGet
      rw [Nat.mod_eq_of_lt hj, if_pos ⟨hj, hm, hi⟩, ok_bind]
  obtain ⟨S, eS, gS, vS⟩ := key (Mat.zero N N) ⟨rfl, rfl⟩ (fun _ h => h.elim)
  refine ⟨S, eS, gS.1, gS.2, ?_⟩
  intro g h i j hg hh hi hj
  by_cases hij : i = j
  · subst hij
    rw [if_pos rfl]
    obtain ⟨k, hk, e⟩ := Diffusion.exists_rot hg hh
    refine ((vS (i + g * d.cells, i + h * d.cells)).1 ⟨k, hk, h, hh, i, hi, by rw [e]⟩).trans ?_
    dsimp only
    rw [flat_div hi, flat_div hi, flat_mod hi]
  · rw [if_neg hij]
    refine ((vS (i + g * d.cells, j + h * d.cells)).2 ?_).trans rfl
    rintro ⟨k, _, l, _, t, ht, e⟩
    simp only [Prod.mk.injEq] at e
    have a := ((flat_inj hi ht).1 e.1).1
    have b := ((flat_inj hj ht).1 e.2).1
    omega

/-- the block diagonal matrix of the reduced probabilities -/
def IsCpm (d : Data) (C : Mat ℝ) (p : Nat → Nat → Nat → ℝ) : Prop :=
  C.r = d.cells * d.energies ∧ C.c = d.cells * d.energies ∧
    ∀ g h i j, g < d.energies → h < d.energies → i < d.cells → j < d.cells →
      C.m (i + g * d.cells) (j + h * d.cells) = if g = h then p g i j else 0

theorem cpm_mul {C B : Mat ℝ} {p : Nat → Nat → Nat → ℝ} (hC : IsCpm d C p) {b : Nat → Nat → Nat → ℝ}
    (hB : ∀ g h i j, g < d.energies → h < d.energies → i < d.cells → j < d.cells →
      B.m (i + g * d.cells) (j + h * d.cells) = if i = j then b g h i else 0)
    {g h i j : Nat} (hg : g < d.energies) (hh : h < d.energies) (hi : i < d.cells) (hj : j < d.cells) :
    ∑ x ∈ range (d.cells * d.energies), C.m (i + g * d.cells) x * B.m x (j + h * d.cells) = p g i j * b g h j := by
  rw [sum_flat, sum_eq_single g]
  · rw [sum_eq_single j]
    · rw [hC.2.2 g g i j hg hg hi hj, if_pos rfl, hB g h j j hg hh hj hj, if_pos rfl]
    · intro l hl hlj
      rw [mem_range] at hl
      rw [hB g h l j hg hh hl hj, if_neg hlj, mul_zero]
    · intro hn; exact absurd (mem_range.2 hj) hn
  · intro e he heg
    rw [mem_range] at he
    refine sum_eq_zero (fun l hl => ?_)
    rw [mem_range] at hl
    rw [hC.2.2 g e i l hg he hi hl, if_neg (Ne.symm heg), zero_mul]
  · intro hn; exact absurd (mem_range.2 hg) hn

theorem lossMatrix_ok {C : Mat ℝ} {p : Nat → Nat → Nat → ℝ} (hC : IsCpm d C p) :
    ∃ M, lossMatrix d C = ok M ∧ M.r = d.cells * d.energies ∧ M.c = d.cells * d.energies ∧
      ∀ g h i j, g < d.energies → h < d.energies → i < d.cells → j < d.cells →
        M.m (i + g * d.cells) (j + h * d.cells) = (if g = h ∧ i = j then 1 else 0) - p g i j * d.scatt h g j := by
  obtain ⟨S, eS, sr, sc, sv⟩ := scatter_ok d
  unfold lossMatrix
  rw [eS, ok_bind, matMul_ok (by dsimp only; rw [hC.2.1, sr]), ok_bind]
  dsimp only
  set N := d.cells * d.energies with hN
  have key : Maps (MatGood N N) (matV (K := ℝ)) (fun M => loop (fun i (M : Mat ℝ) => do
    let x ← M.get i i
    M.set i i (x + 1)) N M) (fun x => ∃ i, i < N ∧ x = (i, i)) (fun _ o => o + 1) := by
    refine Maps.loop (S := fun i x => x = (i, i)) (fun i hi => ?_) ?_
    · refine (Maps.matSet (p := i) (q := i) (u := fun M => M.m i i + 1) hi hi (fun _ _ _ => rfl)).congr ?_ (fun _ => Iff.rfl)
      intro M gM
      rw [Mat.get_ok (by rw [gM.1]; exact hi) (by rw [gM.2]; exact hi), ok_bind]
    · rintro a b x hab _ rfl h'
      simp only [Prod.mk.injEq] at h'
      omega
  obtain ⟨M, eM, gM, vM⟩ := key ⟨C.r, S.c, fun p q => ∑ x ∈ range C.c, -C.m p x * S.m x q⟩ ⟨hC.1, sc⟩
  refine ⟨M, eM, gM.1, gM.2, ?_⟩
  intro g h i j hg hh hi hj
  have hprod : ∑ x ∈ range C.c, -C.m (i + g * d.cells) x * S.m x (j + h * d.cells) = -(p g i j * d.scatt h g j) := by
    rw [hC.2.1, ← cpm_mul hC sv hg hh hi hj, ← sum_neg_distrib]
    exact sum_congr rfl (fun x _ => by ring)
  by_cases hd : g = h ∧ i = j
  · obtain ⟨rfl, rfl⟩ := hd
    refine ((vM (i + g * d.cells, i + g * d.cells)).1 ⟨_, flat_lt hi hg, rfl⟩).trans ?_
    simp only [matV]
    rw [hprod, if_pos ⟨trivial, trivial⟩]
    ring
  · refine ((vM (i + g * d.cells, j + h * d.cells)).2 ?_).trans ?_
    · rintro ⟨x, _, e⟩
      simp only [Prod.mk.injEq] at e
      have := (flat_inj hi hj).1 (e.1.trans e.2.symm)
      exact hd ⟨this.2, this.1⟩
    · simp only [matV]
      rw [hprod, if_neg hd]
      ring

/-- fission production of an unknown -/
def prod (d : Data) (x : Nat) : ℝ := d.fiss.m (x / d.cells) (x % d.cells) * d.nu.m (x / d.cells) (x % d.cells)

theorem fissionDiag_ok (wf : WellFormed d) :
    ∃ F C, fissionDiag d = ok (F, C) ∧ F.r = d.cells * d.energies ∧ F.c = d.cells * d.energies ∧
      C.n = d.cells * d.energies ∧
      (∀ x y, x < d.cells * d.energies → F.m x y = if x = y then prod d x else 0) ∧
      (∀ x, x < d.cells * d.energies → C.v x = d.chi.m (x / d.cells) (x % d.cells)) := by
  set N := d.cells * d.energies with hN
  have key : ∃ FC : Mat ℝ × Vec ℝ, fissionDiag d = ok FC ∧ FC.1.r = N ∧ FC.1.c = N ∧ FC.2.n = N ∧
      (∀ x y, x < N → FC.1.m x y = if x < d.energies * d.cells ∧ x = y then prod d x else 0) ∧
      (∀ x, x < N → x < d.energies * d.cells → FC.2.v x = d.chi.m (x / d.cells) (x % d.cells)) := by
    unfold fissionDiag
    rw [← hN]
    refine loop_inv (fun j (FC : Mat ℝ × Vec ℝ) => FC.1.r = N ∧ FC.1.c = N ∧ FC.2.n = N ∧
      (∀ x y, x < N → FC.1.m x y = if x < j * d.cells ∧ x = y then prod d x else 0) ∧
      (∀ x, x < N → x < j * d.cells → FC.2.v x = d.chi.m (x / d.cells) (x % d.cells))) ?_ ?_
    · refine ⟨rfl, rfl, rfl, ?_, ?_⟩
      · intro x y _; simp [Mat.zero]
      · intro x _ h; omega
    · rintro j FC hj ⟨hr, hc, hn, hF, hC⟩
      have := loop_inv (n := d.cells) (s := FC) (body := fun i (FC : Mat ℝ × Vec ℝ) => do
        let f ← d.fiss.get j i
        let n ← d.nu.get j i
        let F ← FC.1.set (i + j * d.cells) (i + j * d.cells) (f * n)
        let x ← d.chi.get j i
        let C ← FC.2.set (i + j * d.cells) x
        ok (F, C)) (fun i (FC : Mat ℝ × Vec ℝ) => FC.1.r = N ∧ FC.1.c = N ∧ FC.2.n = N ∧
        (∀ x y, x < N → FC.1.m x y = if x < i + j * d.cells ∧ x = y then prod d x else 0) ∧
        (∀ x, x < N → x < i + j * d.cells → FC.2.v x = d.chi.m (x / d.cells) (x % d.cells))) ?_ ?_
      · rwa [show d.cells + j * d.cells = (j + 1) * d.cells by ring] at this
      · simpa using ⟨hr, hc, hn, hF, hC⟩
      · rintro i FC hi ⟨hr, hc, hn, hF, hC⟩
        have q := flat_lt hi hj
        have w1 := wf.fiss_r; have w2 := wf.fiss_c; have w3 := wf.nu_r; have w4 := wf.nu_c
        have w5 := wf.chi_r; have w6 := wf.chi_c
        rw [Mat.get_ok (x := d.fiss) (by omega) (by omega), ok_bind, Mat.get_ok (x := d.nu) (by omega) (by omega), ok_bind,
          Mat.set_ok (x := FC.1) (by omega) (by omega), ok_bind,
          Mat.get_ok (x := d.chi) (by omega) (by omega), ok_bind, Vec.set_ok (x := FC.2) (by omega), ok_bind]
        refine ⟨_, rfl, hr, hc, hn, ?_, ?_⟩
        · intro x y hx
          dsimp only
          by_cases h1 : x = i + j * d.cells ∧ y = i + j * d.cells
          · rw [if_pos h1, if_pos (by omega), h1.1, prod, flat_div hi, flat_mod hi]
          · rw [if_neg h1, hF x y hx]
            by_cases h2 : x < i + j * d.cells ∧ x = y
            · rw [if_pos h2, if_pos (by omega)]
            · rw [if_neg h2, if_neg (by omega)]
        · intro x hx hx'
          dsimp only
          rw [Function.update_apply]
          by_cases h1 : x = i + j * d.cells
          · rw [if_pos h1, h1, flat_div hi, flat_mod hi]
          · rw [if_neg h1, hC x hx (by omega)]
  obtain ⟨FC, h0, h1, h2, h3, h4, h5⟩ := key
  refine ⟨FC.1, FC.2, h0, h1, h2, h3, ?_, ?_⟩
  · intro x y hx
    rw [h4 x y hx]
    have : x < d.energies * d.cells := by rw [Nat.mul_comm]; exact hx
    simp [this]
  · intro x hx
    exact h5 x hx (by rw [Nat.mul_comm]; exact hx)

theorem fissionMatrix_ok (wf : WellFormed d) {C : Mat ℝ} {p : Nat → Nat → Nat → ℝ} (hC : IsCpm d C p) :
    ∃ F, fissionMatrix d C = ok F ∧ F.r = d.cells * d.energies ∧ F.c = d.cells * d.energies ∧
      ∀ g h i j, g < d.energies → h < d.energies → i < d.cells → j < d.cells →
        F.m (i + g * d.cells) (j + h * d.cells) = p g i j * (d.chi.m g j * (d.nu.m h j * d.fiss.m h j)) := by
  obtain ⟨F0, X, h0, r0, c0, n0, hF, hX⟩ := fissionDiag_ok wf
  unfold fissionMatrix
  rw [h0, ok_bind]
  set N := d.cells * d.energies with hN
  set val : Nat → Nat → ℝ := fun x y => if x % d.cells = y % d.cells then prod d y else 0 with hval
  have hw : Writes N N (fun F => ∀ x y, x < N → y < N → x / d.cells = y / d.cells → F.m x y = val x y)
      (fun F => loop (fun n F =>
        loop (fun k F =>
          loopFrom (k * d.cells) (fun i F =>
            loopFrom (n * d.cells) (fun j (F : Mat ℝ) => do
              let x ← F.get (i - k * d.cells + n * d.cells) j
              F.set i j x) d.cells F) d.cells F) d.energies F) d.energies F)
      (fun x y => ∃ n, n < d.energies ∧ ∃ k, k < d.energies ∧ ∃ i, i < d.cells ∧ ∃ j, j < d.cells ∧
        (x = k * d.cells + i ∧ y = n * d.cells + j)) val := by
    refine Writes.loop (fun n hn => Writes.loop (fun k hk =>
      Writes.loopFrom (S := fun i x y => ∃ j, j < d.cells ∧ (x = i ∧ y = n * d.cells + j)) (fun i hi1 hi2 =>
      Writes.loopFrom (S := fun j x y => x = i ∧ y = j) (fun j hj1 hj2 => ?_))))
    obtain ⟨i, rfl⟩ : ∃ i', i = i' + k * d.cells := ⟨i - k * d.cells, by omega⟩
    obtain ⟨j, rfl⟩ : ∃ j', j = j' + n * d.cells := ⟨j - n * d.cells, by omega⟩
    have hi : i < d.cells := by omega
    have hj : j < d.cells := by omega
    refine (Writes.set (p := i + k * d.cells) (q := j + n * d.cells)
      (a := val (i + k * d.cells) (j + n * d.cells)) (flat_lt hi hk) (flat_lt hj hn) rfl ?_).congr ?_ (fun _ _ => Iff.rfl)
    · intro M _ _ hP x y hx hy hxy
      dsimp only
      by_cases h : x = i + k * d.cells ∧ y = j + n * d.cells
      · rw [if_pos h, h.1, h.2]
      · rw [if_neg h]; exact hP x y hx hy hxy
    · intro M hr hc hP
      have q1 := flat_lt hi hn
      have q2 := flat_lt hj hn
      rw [show i + k * d.cells - k * d.cells = i by omega, Mat.get_ok (by omega) (by omega), ok_bind,
        hP _ _ q1 q2 (by rw [flat_div hi, flat_div hj])]
      simp only [hval, flat_mod hi, flat_mod hj]
  obtain ⟨F1, h1, r1, c1, -, hv⟩ := hw F0 r0 c0 (by
    intro x y hx hy hxy
    rw [hF x y hx, hval]
    dsimp only
    by_cases h : x = y
    · rw [if_pos h, if_pos (by rw [h]), h]
    · rw [if_neg h, if_neg]
      intro h'
      exact h (by rw [← Nat.div_add_mod x d.cells, ← Nat.div_add_mod y d.cells, hxy, h']))
  dsimp only at h1 ⊢
  rw [h1, ok_bind]
  obtain ⟨F2, h2, r2, c2, hv2⟩ := loop2_map N N (fun i j x => x * d.chi.m (i / d.cells) (i % d.cells))
    (fun i j F => do
      let x ← F.get i j
      let c ← X.get i
      F.set i j (x * c)) (by
    intro i j M hi hj hr hc
    rw [Mat.get_ok (by omega) (by omega), ok_bind, Vec.get_ok (by omega), ok_bind, hX i hi]) F1 r1 c1
  rw [h2, ok_bind, matMul_ok (by rw [hC.2.1, r2])]
  refine ⟨_, rfl, hC.1, c2, ?_⟩
  have hB : ∀ g h i j, g < d.energies → h < d.energies → i < d.cells → j < d.cells →
      F2.m (i + g * d.cells) (j + h * d.cells) = if i = j then d.chi.m g i * (d.nu.m h i * d.fiss.m h i) else 0 := by
    intro g h i j hg hh hi hj
    rw [hv2 _ _ (flat_lt hi hg) (flat_lt hj hh), (hv _ _).1 ⟨h, hh, g, hg, i, hi, j, hj, by omega, by omega⟩, hval]
    dsimp only
    rw [flat_mod hi, flat_mod hj, flat_div hi]
    by_cases hij : i = j
    · subst hij
      rw [if_pos rfl, if_pos rfl, prod, flat_div hi, flat_mod hi]
      ring
    · rw [if_neg hij, if_neg hij, zero_mul]
  intro g h i j hg hh hi hj
  dsimp only
  rw [hC.2.1]
  exact cpm_mul hC hB hg hh hi hj

end

end Verif.CPM
