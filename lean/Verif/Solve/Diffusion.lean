import Verif.Solve.Spec
import Verif.Solve.Model
import Verif.Diffusion.Props
import Verif.Eigen.Graph

/-! The matrices of the diffusion solver as a criticality problem. -/

namespace Verif.Solve

open Verif Outcome Finset Eigen

noncomputable section

open scoped Classical

variable {d : Diffusion.Data} {aL aR : ℝ}

/-- entries of the loss matrix -/
def loss (d : Diffusion.Data) (aL aR : ℝ) (p q : Nat) : ℝ :=
  (if p / d.cells = q / d.cells then Diffusion.row d aL aR (p / d.cells) (p % d.cells) (q % d.cells) else 0) -
    (if p % d.cells = q % d.cells then d.scatt (q / d.cells) (p / d.cells) (p % d.cells) * d.vol.v (p % d.cells) else 0)

/-- entries of the fission matrix -/
def fission (d : Diffusion.Data) (p q : Nat) : ℝ :=
  if p % d.cells = q % d.cells then
    d.chi.m (p / d.cells) (p % d.cells) * d.vol.v (p % d.cells) *
      (d.nu.m (q / d.cells) (p % d.cells) * d.fiss.m (q / d.cells) (p % d.cells))
  else 0

theorem loss_flat {g h i j : Nat} (hi : i < d.cells) (hj : j < d.cells) :
    loss d aL aR (i + g * d.cells) (j + h * d.cells) =
      (if g = h then Diffusion.row d aL aR g i j else 0) - (if i = j then d.scatt h g i * d.vol.v i else 0) := by
  unfold loss
  rw [flat_mod hi, flat_mod hj, flat_div hi, flat_div hj]

theorem fission_flat {g h i j : Nat} (hi : i < d.cells) (hj : j < d.cells) :
    fission d (i + g * d.cells) (j + h * d.cells) =
      if i = j then d.chi.m g i * d.vol.v i * (d.nu.m h i * d.fiss.m h i) else 0 := by
  unfold fission
  rw [flat_mod hi, flat_mod hj, flat_div hi, flat_div hj]

theorem Regular.sound (R : Regular d aL aR) : Sound d aL aR := ⟨R.wf, R.pos, R.cells, R.albedos, R.left, R.right⟩

theorem forward_ok (S : Sound d aL aR) : ∃ M F, Diffusion.assemble d .forward = ok (M, F) ∧
    Square (d.cells * d.energies) (lift M) (lift F) ∧
    Entries (d.cells * d.energies) (loss d aL aR) (lift M) ∧ Entries (d.cells * d.energies) (fission d) (lift F) := by
  obtain ⟨D, h, hr, hcc, hv⟩ := Diffusion.albedo_ok S.wf S.pos S.cells S.albedos S.left S.right
  obtain ⟨M, hM, mr, mc, mv⟩ := Diffusion.forwardM_ok S.wf hr hcc
  obtain ⟨F, hF, fr, fc, fv⟩ := Diffusion.forwardF_ok S.wf
  obtain ⟨D1, hD1, hb⟩ := bind_eq_ok.1 h
  refine ⟨M, F, ?_, ⟨mr, mc, fr, fc⟩, ?_, ?_⟩
  · unfold Diffusion.assemble
    rw [hD1, ok_bind, hb, ok_bind]
    dsimp only
    rw [hM, ok_bind, hF, ok_bind]
  · intro p q hp hq
    obtain ⟨i, g, hi, hg, rfl⟩ := flat_surj hp
    obtain ⟨j, k, hj, hk, rfl⟩ := flat_surj hq
    show Fl.fin _ = _
    rw [loss_flat hi hj, mv g k i j hg hk hi hj, hv g k i j hg hk hi hj]
  · intro p q hp hq
    obtain ⟨i, g, hi, hg, rfl⟩ := flat_surj hp
    obtain ⟨j, k, hj, hk, rfl⟩ := flat_surj hq
    show Fl.fin _ = _
    rw [fission_flat hi hj, fv g k i j hg hk hi hj]
    congr 1
    split_ifs <;> ring

theorem adjoint_ok (S : Sound d aL aR) : ∃ M F, Diffusion.assemble d .adjoint = ok (M, F) ∧
    Square (d.cells * d.energies) (lift M) (lift F) ∧
    Entries (d.cells * d.energies) (fun p q => loss d aL aR q p) (lift M) ∧
    Entries (d.cells * d.energies) (fun p q => fission d q p) (lift F) := by
  obtain ⟨M, F, M', F', h1, h2, -, -, -, -, mr, mc, fr, fc, ht⟩ :=
    Diffusion.C15_transpose S.wf S.pos S.cells S.albedos S.left S.right
  obtain ⟨M1, F1, h3, -, eM, eF⟩ := forward_ok S
  rw [h1] at h3
  injection h3 with h3
  injection h3 with h3 h4
  subst h3
  subst h4
  refine ⟨M', F', h2, ⟨mr, mc, fr, fc⟩, fun p q hp hq => ?_, fun p q hp hq => ?_⟩
  · show Fl.fin _ = _
    rw [(ht p q hp hq).1]
    exact eM q p hq hp
  · show Fl.fin _ = _
    rw [(ht p q hp hq).2]
    exact eF q p hq hp

/-! ### the equation -/

theorem face_unique {D1 h1 D2 h2 S f1 f2 J J' : ℝ} (p1 : 0 < D1) (p2 : 0 < h1) (p3 : 0 < D2) (p4 : 0 < h2)
    (a : Diffusion.FaceCurrent D1 h1 D2 h2 S f1 f2 J) (b : Diffusion.FaceCurrent D1 h1 D2 h2 S f1 f2 J') : J = J' := by
  obtain ⟨x, a1, a2⟩ := a
  obtain ⟨y, b1, b2⟩ := b
  have c1 : J - J' = -(S * D1 / (h1 / 2)) * (x - y) := by rw [a1, b1]; ring
  have c2 : J - J' = (S * D2 / (h2 / 2)) * (x - y) := by rw [a2, b2]; ring
  have q1 : 0 < D1 / (h1 / 2) := by positivity
  have q2 : 0 < D2 / (h2 / 2) := by positivity
  have : (D1 / (h1 / 2) + D2 / (h2 / 2)) * (S * (x - y)) = 0 := by
    have : (S * D2 / (h2 / 2)) * (x - y) = -(S * D1 / (h1 / 2)) * (x - y) := c2.symm.trans c1
    have e1 : S * D2 / (h2 / 2) = S * (D2 / (h2 / 2)) := by ring
    have e2 : S * D1 / (h1 / 2) = S * (D1 / (h1 / 2)) := by ring
    rw [e1, e2] at this
    linear_combination this
  have hz : S * (x - y) = 0 := (mul_eq_zero.1 this).resolve_left (by positivity)
  have : J - J' = (D2 / (h2 / 2)) * (S * (x - y)) := by rw [c2]; ring
  rw [hz, mul_zero] at this
  linarith

theorem albedo_unique {D h a S f J J' : ℝ} (p1 : 0 < D) (p2 : 0 < h) (h1 : -1 ≤ a) (h2 : a ≤ 1)
    (x : Diffusion.AlbedoCurrent D h a S f J) (y : Diffusion.AlbedoCurrent D h a S f J') : J = J' := by
  obtain ⟨u, a1, a2⟩ := x
  obtain ⟨v, b1, b2⟩ := y
  have q1 : 0 < D / (h / 2) := by positivity
  have c1 : J - J' = -(D / (h / 2)) * (S * (u - v)) := by rw [a1, b1]; ring
  have c2 : (1 - a) * (S * (u - v)) = 2 * (1 + a) * (J - J') := by linear_combination 4 * a2 - 4 * b2
  rw [c1] at c2
  have : ((1 - a) + 2 * (1 + a) * (D / (h / 2))) * (S * (u - v)) = 0 := by linear_combination c2
  have hne : 0 < (1 - a) + 2 * (1 + a) * (D / (h / 2)) := by
    rcases eq_or_lt_of_le h1 with e | e
    · rw [← e]; norm_num
    · have : 0 < 2 * (1 + a) * (D / (h / 2)) := by
        apply mul_pos _ q1
        linarith
      linarith
  rcases mul_eq_zero.1 this with e | e
  · exact absurd e hne.ne'
  · rw [e, mul_zero] at c1
    linarith

theorem Currents.unique (S : Sound d aL aR) {φ : Nat → ℝ} {J J' : Nat → Nat → ℝ} (a : Currents d aL aR φ J)
    (b : Currents d aL aR φ J') : ∀ g m, g < d.energies → m ≤ d.cells → J g m = J' g m := by
  intro g m hg hm
  have hc := S.cells
  rcases m with _ | m
  · have := albedo_unique (S.pos.D_pos g hg 0 (by omega)) (S.pos.size_pos 0 (by omega)) S.left.1 S.left.2 (a.left g hg) (b.left g hg)
    linarith
  · rcases eq_or_lt_of_le hm with e | e
    · rw [e]
      exact albedo_unique (S.pos.D_pos g hg _ (by omega)) (S.pos.size_pos _ (by omega)) S.right.1 S.right.2 (a.right g hg) (b.right g hg)
    · exact face_unique (S.pos.D_pos g hg m (by omega)) (S.pos.size_pos m (by omega)) (S.pos.D_pos g hg _ e) (S.pos.size_pos _ e)
        (a.inner g m hg e) (b.inner g m hg e)

theorem within_apply (S : Sound d aL aR) (φ : Nat → ℝ) : ∃ J, Currents d aL aR φ J ∧ ∀ g i, g < d.energies → i < d.cells →
    ∑ j ∈ range d.cells, Diffusion.row d aL aR g i j * φ (j + g * d.cells) =
      d.tot.m g i * d.vol.v i * φ (i + g * d.cells) + J g (i + 1) - J g i := by
  obtain ⟨D, h, hr, hcc, hv⟩ := Diffusion.albedo_ok S.wf S.pos S.cells S.albedos S.left S.right
  obtain ⟨D', h', -, -, hb⟩ := Diffusion.C13_cell_balance S.wf S.pos S.cells S.albedos S.left S.right
  have : D' = D := by
    have := h'.symm.trans h
    injection this
  subst this
  choose J hJ using fun (g : Nat) (hg : g < d.energies) => hb φ g hg
  refine ⟨fun g m => if hg : g < d.energies then J g hg m else 0, ⟨?_, ?_, ?_⟩, ?_⟩
  · intro g i hg hi
    rw [dif_pos hg]
    exact (hJ g hg).2.1 i hi
  · intro g hg
    rw [dif_pos hg]
    exact (hJ g hg).2.2.1
  · intro g hg
    rw [dif_pos hg]
    exact (hJ g hg).2.2.2
  · intro g i hg hi
    dsimp only
    rw [dif_pos hg, dif_pos hg, ← (hJ g hg).1 i hi, Diffusion.flat_row_sum hv hg hi]

theorem loss_apply (S : Sound d aL aR) (φ : Nat → ℝ) : ∃ J, Currents d aL aR φ J ∧ ∀ g i, g < d.energies → i < d.cells →
    act (d.cells * d.energies) (loss d aL aR) φ (i + g * d.cells) =
      d.tot.m g i * d.vol.v i * φ (i + g * d.cells) + J g (i + 1) - J g i - d.vol.v i * scatterIn d φ g i := by
  obtain ⟨J, hJ, h⟩ := within_apply S φ
  refine ⟨J, hJ, fun g i hg hi => ?_⟩
  rw [← h g i hg hi]
  unfold act scatterIn
  rw [sum_flat]
  have e1 : ∀ k ∈ range d.energies, ∑ j ∈ range d.cells, loss d aL aR (i + g * d.cells) (j + k * d.cells) * φ (j + k * d.cells) =
      (if k = g then ∑ j ∈ range d.cells, Diffusion.row d aL aR g i j * φ (j + g * d.cells) else 0) -
        d.scatt k g i * d.vol.v i * φ (i + k * d.cells) := by
    intro k _
    rw [sum_congr rfl (fun j hj => by rw [loss_flat hi (mem_range.1 hj), sub_mul]), sum_sub_distrib]
    congr 1
    · by_cases hk : k = g
      · subst hk; rw [if_pos rfl]; simp only [if_true]
      · rw [if_neg hk]; simp only [Ne.symm hk, if_false, zero_mul, sum_const_zero]
    · rw [sum_eq_single i (fun j _ hj => by rw [if_neg (Ne.symm hj), zero_mul]) (fun h => absurd (mem_range.2 hi) h), if_pos rfl]
  rw [sum_congr rfl e1, sum_sub_distrib, sum_ite_eq', if_pos (mem_range.2 hg), mul_sum]
  congr 1
  exact sum_congr rfl (fun k _ => by ring)

theorem fission_apply (φ : Nat → ℝ) {g i : Nat} (hi : i < d.cells) :
    act (d.cells * d.energies) (fission d) φ (i + g * d.cells) = d.vol.v i * (d.chi.m g i * production d φ i) := by
  unfold act production
  rw [sum_flat, mul_sum, mul_sum]
  refine sum_congr rfl (fun k _ => ?_)
  rw [sum_eq_single i (fun j hj hne => by rw [fission_flat hi (mem_range.1 hj), if_neg (Ne.symm hne), zero_mul])
    (fun h => absurd (mem_range.2 hi) h), fission_flat hi hi, if_pos rfl]
  ring

theorem equation_iff (S : Sound d aL aR) {k : ℝ} {φ : Nat → ℝ} :
    (∀ p, p < d.cells * d.energies → act (d.cells * d.energies) (loss d aL aR) φ p = act (d.cells * d.energies) (fission d) φ p / k) ↔
      DiffusionEq d aL aR k φ := by
  obtain ⟨J, hJ, h⟩ := loss_apply S φ
  have key : ∀ g i, g < d.energies → i < d.cells →
      ((act (d.cells * d.energies) (loss d aL aR) φ (i + g * d.cells) = act (d.cells * d.energies) (fission d) φ (i + g * d.cells) / k) ↔
        d.tot.m g i * d.vol.v i * φ (i + g * d.cells) + J g (i + 1) - J g i =
          d.vol.v i * (scatterIn d φ g i + d.chi.m g i * production d φ i / k)) := by
    intro g i hg hi
    rw [h g i hg hi, fission_apply φ hi, mul_div_assoc, mul_add]
    constructor <;> intro e <;> linarith
  constructor
  · exact fun e => ⟨J, hJ, fun g i hg hi => (key g i hg hi).1 (e _ (flat_lt hi hg))⟩
  · rintro ⟨J', hJ', h'⟩ p hp
    obtain ⟨i, g, hi, hg, rfl⟩ := flat_surj hp
    refine (key g i hg hi).2 ?_
    have e := h' g i hg hi
    rwa [hJ'.unique S hJ g (i + 1) hg hi, hJ'.unique S hJ g i hg hi.le] at e

theorem source_balance (S : Sound d aL aR) {q : Nat → Nat → ℝ} {φ : Nat → ℝ} :
    (∀ g i, g < d.energies → i < d.cells → act (d.cells * d.energies) (loss d aL aR) φ (i + g * d.cells) = q g i) ↔
      ∃ J, Currents d aL aR φ J ∧ ∀ g i, g < d.energies → i < d.cells →
        d.tot.m g i * d.vol.v i * φ (i + g * d.cells) + J g (i + 1) - J g i = d.vol.v i * scatterIn d φ g i + q g i := by
  obtain ⟨J, hJ, h⟩ := loss_apply S φ
  constructor
  · intro e
    refine ⟨J, hJ, fun g i hg hi => ?_⟩
    have := h g i hg hi
    rw [e g i hg hi] at this
    linarith
  · rintro ⟨J', hJ', h'⟩ g i hg hi
    have e := h' g i hg hi
    rw [hJ'.unique S hJ g (i + 1) hg hi, hJ'.unique S hJ g i hg hi.le] at e
    rw [h g i hg hi]
    linarith

theorem adjoint_apply (S : Sound d aL aR) (φ : Nat → ℝ) : ∃ J, Currents d aL aR φ J ∧ ∀ g i, g < d.energies → i < d.cells →
    act (d.cells * d.energies) (fun p q => loss d aL aR q p) φ (i + g * d.cells) =
      d.tot.m g i * d.vol.v i * φ (i + g * d.cells) + J g (i + 1) - J g i -
        d.vol.v i * ∑ h ∈ range d.energies, d.scatt g h i * φ (i + h * d.cells) := by
  obtain ⟨J, hJ, h⟩ := within_apply S φ
  refine ⟨J, hJ, fun g i hg hi => ?_⟩
  rw [← h g i hg hi]
  unfold act
  rw [sum_flat]
  have e1 : ∀ k ∈ range d.energies, ∑ j ∈ range d.cells, loss d aL aR (j + k * d.cells) (i + g * d.cells) * φ (j + k * d.cells) =
      (if k = g then ∑ j ∈ range d.cells, Diffusion.row d aL aR g i j * φ (j + g * d.cells) else 0) -
        d.scatt g k i * d.vol.v i * φ (i + k * d.cells) := by
    intro k _
    rw [sum_congr rfl (fun j hj => by rw [loss_flat (mem_range.1 hj) hi, sub_mul]), sum_sub_distrib]
    congr 1
    · by_cases hk : k = g
      · subst hk
        rw [if_pos rfl]
        simp only [if_true]
        exact sum_congr rfl (fun j _ => by unfold Diffusion.row; rw [Diffusion.tri_symm])
      · rw [if_neg hk]; simp only [hk, if_false, zero_mul, sum_const_zero]
    · rw [sum_eq_single i (fun j _ hj => by rw [if_neg hj, zero_mul]) (fun h => absurd (mem_range.2 hi) h), if_pos rfl]
  rw [sum_congr rfl e1, sum_sub_distrib, sum_ite_eq', if_pos (mem_range.2 hg), mul_sum]
  congr 1
  exact sum_congr rfl (fun k _ => by ring)

theorem adjoint_balance (S : Sound d aL aR) {q : Nat → Nat → ℝ} {φ : Nat → ℝ} :
    (∀ g i, g < d.energies → i < d.cells → act (d.cells * d.energies) (fun p q => loss d aL aR q p) φ (i + g * d.cells) = q g i) ↔
      ∃ J, Currents d aL aR φ J ∧ ∀ g i, g < d.energies → i < d.cells →
        d.tot.m g i * d.vol.v i * φ (i + g * d.cells) + J g (i + 1) - J g i =
          d.vol.v i * (∑ h ∈ range d.energies, d.scatt g h i * φ (i + h * d.cells)) + q g i := by
  obtain ⟨J, hJ, h⟩ := adjoint_apply S φ
  constructor
  · intro e
    refine ⟨J, hJ, fun g i hg hi => ?_⟩
    have := h g i hg hi
    rw [e g i hg hi] at this
    linarith
  · rintro ⟨J', hJ', h'⟩ g i hg hi
    have e := h' g i hg hi
    rw [hJ'.unique S hJ g (i + 1) hg hi, hJ'.unique S hJ g i hg hi.le] at e
    rw [h g i hg hi]
    linarith

theorem adjoint_fission_apply (φ : Nat → ℝ) {g i : Nat} (hi : i < d.cells) :
    act (d.cells * d.energies) (fun p q => fission d q p) φ (i + g * d.cells) =
      d.vol.v i * (d.nu.m g i * d.fiss.m g i * ∑ h ∈ range d.energies, d.chi.m h i * φ (i + h * d.cells)) := by
  unfold act
  dsimp only
  rw [sum_flat, mul_sum, mul_sum]
  refine sum_congr rfl (fun k _ => ?_)
  rw [sum_eq_single i (fun j hj hne => by rw [fission_flat (mem_range.1 hj) hi, if_neg hne, zero_mul])
    (fun h => absurd (mem_range.2 hi) h), fission_flat hi hi, if_pos rfl]
  ring

theorem adjoint_iff (S : Sound d aL aR) {k : ℝ} {φ : Nat → ℝ} :
    (∀ p, p < d.cells * d.energies → act (d.cells * d.energies) (fun p q => loss d aL aR q p) φ p =
      act (d.cells * d.energies) (fun p q => fission d q p) φ p / k) ↔ AdjointEq d aL aR k φ := by
  obtain ⟨J, hJ, h⟩ := adjoint_apply S φ
  have key : ∀ g i, g < d.energies → i < d.cells →
      ((act (d.cells * d.energies) (fun p q => loss d aL aR q p) φ (i + g * d.cells) =
        act (d.cells * d.energies) (fun p q => fission d q p) φ (i + g * d.cells) / k) ↔
        d.tot.m g i * d.vol.v i * φ (i + g * d.cells) + J g (i + 1) - J g i =
      d.vol.v i * ((∑ h ∈ range d.energies, d.scatt g h i * φ (i + h * d.cells)) +
        d.nu.m g i * d.fiss.m g i * (∑ h ∈ range d.energies, d.chi.m h i * φ (i + h * d.cells)) / k)) := by
    intro g i hg hi
    rw [h g i hg hi, adjoint_fission_apply φ hi, mul_div_assoc, mul_add]
    constructor <;> intro e <;> linarith
  constructor
  · exact fun e => ⟨J, hJ, fun g i hg hi => (key g i hg hi).1 (e _ (flat_lt hi hg))⟩
  · rintro ⟨J', hJ', h'⟩ p hp
    obtain ⟨i, g, hi, hg, rfl⟩ := flat_surj hp
    refine (key g i hg hi).2 ?_
    have e := h' g i hg hi
    rwa [hJ'.unique S hJ g (i + 1) hg hi, hJ'.unique S hJ g i hg hi.le] at e

/-! ### positivity -/

theorem di_nonneg (S : Sound d aL aR) (habs : Diffusion.Absorbing d) {g i : Nat} (hg : g < d.energies) (hi : i + 1 < d.cells) :
    0 ≤ Diffusion.di d g i := by
  have p1 := S.pos.D_pos g hg i (by omega)
  have p2 := S.pos.D_pos g hg (i + 1) hi
  have p3 := S.pos.size_pos i (by omega)
  have p4 := S.pos.size_pos (i + 1) hi
  have p5 := habs.surf_nonneg (i + 1) hi.le
  unfold Diffusion.di
  positivity

theorem di_pos (S : Sound d aL aR) {g i : Nat} (hg : g < d.energies) (hi : i + 1 < d.cells) (hs : 0 < d.surf.v (i + 1)) :
    0 < Diffusion.di d g i := by
  have p1 := S.pos.D_pos g hg i (by omega)
  have p2 := S.pos.D_pos g hg (i + 1) hi
  have p3 := S.pos.size_pos i (by omega)
  have p4 := S.pos.size_pos (i + 1) hi
  unfold Diffusion.di
  positivity

theorem loss_off (S : Sound d aL aR) (habs : Diffusion.Absorbing d) : OffDiagonal (d.cells * d.energies) (loss d aL aR) := by
  intro p q hp hq hne
  obtain ⟨i, g, hi, hg, rfl⟩ := flat_surj hp
  obtain ⟨j, k, hj, hk, rfl⟩ := flat_surj hq
  rw [loss_flat hi hj]
  have hsc : 0 ≤ if i = j then d.scatt k g i * d.vol.v i else 0 := by
    split_ifs
    · exact mul_nonneg (habs.scatt_nonneg k g i hk hg hi) (habs.vol_pos i hi).le
    · exact le_rfl
  have hrow : (if g = k then Diffusion.row d aL aR g i j else 0) ≤ 0 := by
    by_cases hgk : g = k
    · subst hgk
      rw [if_pos rfl]
      have hij : j ≠ i := by rintro rfl; exact hne rfl
      unfold Diffusion.row Diffusion.tri
      rw [if_neg hij]
      split_ifs with h1 h2
      · have := di_nonneg S habs hg (i := i) (by omega); linarith
      · have := di_nonneg S habs hg (i := j) (by omega); linarith
      · exact le_rfl
    · rw [if_neg hgk]
  linarith

theorem loss_inverse (S : Sound d aL aR) (habs : Diffusion.Absorbing d) :
    InversePositive (d.cells * d.energies) (loss d aL aR) ∧
    ∀ b : Nat → ℝ, ∃ x : Nat → ℝ, ∀ p, p < d.cells * d.energies → act (d.cells * d.energies) (loss d aL aR) x p = b p := by
  obtain ⟨M, F, h1, hs, -, hp⟩ := Diffusion.C46_positive_inverse S.wf S.pos S.cells S.albedos S.left S.right habs
  obtain ⟨M1, F1, h3, -, eM, -⟩ := forward_ok S
  rw [h1] at h3
  injection h3 with h3
  injection h3 with h3 h4
  subst h3
  have e : ∀ (x : Nat → ℝ) p, p < d.cells * d.energies →
      act (d.cells * d.energies) (loss d aL aR) x p = ∑ q ∈ range (d.cells * d.energies), M.m p q * x q := by
    intro x p hp
    refine sum_congr rfl (fun q hq => ?_)
    have := eM p q hp (mem_range.1 hq)
    injection this with this
    rw [← this]
  refine ⟨fun x hx => hp x (fun p hp => by rw [← e x p hp]; exact hx p hp), fun b => ?_⟩
  obtain ⟨x, hx⟩ := hs b
  exact ⟨x, fun p hp => by rw [e x p hp]; exact hx p hp⟩

/-! ### fission cell by cell -/

/-- some neutrons are produced in the cell -/
def Fissile (d : Diffusion.Data) (i : Nat) : Prop := ∃ g, g < d.energies ∧ 0 < d.nu.m g i * d.fiss.m g i

/-- emission of the neutrons of cell `p` -/
def emit (d : Diffusion.Data) (x p : Nat) : ℝ :=
  if p < d.cells ∧ x % d.cells = p ∧ Fissile d p then d.chi.m (x / d.cells) p * d.vol.v p else 0

/-- production in cell `p` -/
def prod (d : Diffusion.Data) (p x : Nat) : ℝ :=
  if p < d.cells ∧ x % d.cells = p ∧ Fissile d p then d.nu.m (x / d.cells) p * d.fiss.m (x / d.cells) p else 0

theorem emit_flat {g i p : Nat} (hi : i < d.cells) :
    emit d (i + g * d.cells) p = if i = p ∧ Fissile d p then d.chi.m g p * d.vol.v p else 0 := by
  unfold emit
  rw [flat_mod hi, flat_div hi]
  by_cases h : i = p
  · subst h; simp only [hi, true_and]
  · rw [if_neg (fun c => h c.2.1), if_neg (fun c => h c.1)]

theorem prod_flat {g i p : Nat} (hi : i < d.cells) :
    prod d p (i + g * d.cells) = if i = p ∧ Fissile d p then d.nu.m g p * d.fiss.m g p else 0 := by
  unfold prod
  rw [flat_mod hi, flat_div hi]
  by_cases h : i = p
  · subst h; simp only [hi, true_and]
  · rw [if_neg (fun c => h c.2.1), if_neg (fun c => h c.1)]

theorem emit_nonneg (hv : ∀ i, i < d.cells → 0 < d.vol.v i) (m : Multiplying d) {x : Nat} (hx : x < d.cells * d.energies) (p : Nat) :
    0 ≤ emit d x p := by
  obtain ⟨i, g, hi, hg, rfl⟩ := flat_surj hx
  rw [emit_flat hi]
  split_ifs with h
  · obtain ⟨rfl, -⟩ := h
    exact mul_nonneg (m.chi_nonneg g i hg hi) (hv i hi).le
  · exact le_rfl

theorem prod_nonneg (m : Multiplying d) {x : Nat} (hx : x < d.cells * d.energies) (p : Nat) : 0 ≤ prod d p x := by
  obtain ⟨i, g, hi, hg, rfl⟩ := flat_surj hx
  rw [prod_flat hi]
  split_ifs with h
  · obtain ⟨rfl, -⟩ := h
    exact m.prod_nonneg g i hg hi
  · exact le_rfl

theorem fission_prod (m : Multiplying d) {x y : Nat} (hx : x < d.cells * d.energies) (hy : y < d.cells * d.energies) :
    fission d x y = ∑ p ∈ range (d.cells * d.energies), emit d x p * prod d p y := by
  obtain ⟨i, g, hi, hg, rfl⟩ := flat_surj hx
  obtain ⟨j, h, hj, hh, rfl⟩ := flat_surj hy
  have hiN : i < d.cells * d.energies := lt_of_lt_of_le hi (Nat.le_mul_of_pos_right _ (by omega))
  rw [sum_eq_single i (fun p _ hne => by rw [emit_flat hi, if_neg (fun c => hne c.1.symm), zero_mul])
    (fun h => absurd (mem_range.2 hiN) h), emit_flat hi, prod_flat hj, fission_flat hi hj]
  by_cases hij : i = j
  · subst hij
    by_cases hf : Fissile d i
    · simp only [hf, and_self, if_true]
    · simp only [hf, and_false, if_false, if_true, mul_zero]
      have : d.nu.m h i * d.fiss.m h i = 0 := by
        refine le_antisymm (not_lt.1 (fun c => hf ⟨h, hh, c⟩)) (m.prod_nonneg h i hh hi)
      rw [this, mul_zero]
  · rw [if_neg hij, if_neg (fun c : j = i ∧ _ => hij c.1.symm), mul_zero]

theorem fission_factored (hv : ∀ i, i < d.cells → 0 < d.vol.v i) (m : Multiplying d) :
    Factored (d.cells * d.energies) (fission d) (emit d) (prod d) :=
  ⟨fun _ _ hx hy => fission_prod m hx hy, fun _ p hx _ => emit_nonneg hv m hx p, fun p _ _ hx => prod_nonneg m hx p⟩

theorem adjoint_factored (hv : ∀ i, i < d.cells → 0 < d.vol.v i) (m : Multiplying d) :
    Factored (d.cells * d.energies) (fun p q => fission d q p) (fun x p => prod d p x) (fun p x => emit d x p) :=
  ⟨fun _ _ hx hy => by
      rw [fission_prod m hy hx]
      exact sum_congr rfl (fun p _ => mul_comm _ _),
    fun _ p hx _ => prod_nonneg m hx p, fun p _ _ hx => emit_nonneg hv m hx p⟩

theorem emits_prod {p : Nat} (h : Emits (d.cells * d.energies) (prod d) p) : p < d.cells ∧ Fissile d p := by
  obtain ⟨x, -, hne⟩ := h
  unfold prod at hne
  split_ifs at hne with c
  · exact ⟨c.1, c.2.2⟩
  · exact absurd rfl hne

theorem emits_emit {p : Nat} (h : Emits (d.cells * d.energies) (fun p x => emit d x p) p) : p < d.cells ∧ Fissile d p := by
  obtain ⟨x, -, hne⟩ := h
  dsimp only at hne
  unfold emit at hne
  split_ifs at hne with c
  · exact ⟨c.1, c.2.2⟩
  · exact absurd rfl hne

theorem step_gain (S : Sound d aL aR) (habs : Diffusion.Absorbing d) {p q : Nat × Nat} (h : Step d p q) :
    p = q ∨ loss d aL aR (q.1 + q.2 * d.cells) (p.1 + p.2 * d.cells) < 0 := by
  obtain ⟨i, g⟩ := p
  obtain ⟨j, k⟩ := q
  obtain ⟨hi, hj, hg, hk, h⟩ := h
  dsimp only at hi hj hg hk h ⊢
  rw [loss_flat hj hi]
  rcases h with ⟨rfl, rfl, hs⟩ | ⟨rfl, rfl, hs⟩ | ⟨rfl, hs⟩
  · right
    rw [if_pos rfl, if_neg (by omega), sub_zero]
    unfold Diffusion.row Diffusion.tri
    rw [if_neg (by omega), if_neg (by omega), if_pos rfl]
    have := di_pos S hg hj hs
    linarith
  · right
    rw [if_pos rfl, if_neg (by omega), sub_zero]
    unfold Diffusion.row Diffusion.tri
    rw [if_neg (by omega), if_pos rfl]
    have := di_pos S hg hi hs
    linarith
  · by_cases hgk : g = k
    · left; rw [hgk]
    · right
      rw [if_neg (Ne.symm hgk), if_pos rfl, zero_sub]
      have := mul_pos hs (habs.vol_pos i hi)
      linarith

theorem path_gain (S : Sound d aL aR) (habs : Diffusion.Absorbing d) {p q : Nat × Nat} (h : Relation.ReflTransGen (Step d) p q) :
    Relation.ReflTransGen (fun x y => x < d.cells * d.energies ∧ y < d.cells * d.energies ∧ loss d aL aR y x < 0)
      (p.1 + p.2 * d.cells) (q.1 + q.2 * d.cells) := by
  induction h with
  | refl => exact .refl
  | tail _ hs ih =>
    rcases step_gain S habs hs with e | e
    · rw [← e]; exact ih
    · exact .tail ih ⟨flat_lt hs.1 hs.2.2.1, flat_lt hs.2.1 hs.2.2.2.1, e⟩

theorem Regular.connected (R : Regular d aL aR) : Connected (d.cells * d.energies) (loss d aL aR) (emit d) (prod d) := by
  have S := R.sound
  refine connected_of_links (loss_inverse S R.absorbing).1 (loss_off S R.absorbing)
    (fun _ p hx _ => emit_nonneg R.absorbing.vol_pos R.multiplying hx p) (fun p _ _ hx => prod_nonneg R.multiplying hx p)
    (fun a b _ _ ha hb => ?_)
  obtain ⟨ha, fa⟩ := emits_prod ha
  obtain ⟨hb, fb⟩ := emits_prod hb
  obtain ⟨g, h, hg, hh, hchi, hprod, path⟩ := R.linked a b ha hb fa fb
  refine ⟨a + g * d.cells, b + h * d.cells, flat_lt ha hg, flat_lt hb hh, ?_, ?_, path_gain S R.absorbing path⟩
  · rw [emit_flat ha, if_pos ⟨rfl, fa⟩]
    exact mul_pos hchi (R.absorbing.vol_pos a ha)
  · rw [prod_flat hb, if_pos ⟨rfl, fb⟩]
    exact hprod

theorem Regular.connected_adjoint (R : Regular d aL aR) :
    Connected (d.cells * d.energies) (fun p q => loss d aL aR q p) (fun x p => prod d p x) (fun p x => emit d x p) := by
  have S := R.sound
  obtain ⟨h1, h2⟩ := loss_inverse S R.absorbing
  refine connected_of_links (inverse_transpose h1 h2) (fun i j hi hj hne => loss_off S R.absorbing j i hj hi (Ne.symm hne))
    (fun _ p hx _ => prod_nonneg R.multiplying hx p) (fun p _ _ hx => emit_nonneg R.absorbing.vol_pos R.multiplying hx p)
    (fun a b _ _ ha hb => ?_)
  obtain ⟨ha, fa⟩ := emits_emit ha
  obtain ⟨hb, fb⟩ := emits_emit hb
  obtain ⟨g, h, hg, hh, hchi, hprod, path⟩ := R.linked b a hb ha fb fa
  refine ⟨a + h * d.cells, b + g * d.cells, flat_lt ha hh, flat_lt hb hg, ?_, ?_, path_transpose (path_gain S R.absorbing path)⟩
  · rw [prod_flat ha, if_pos ⟨rfl, fa⟩]
    exact hprod
  · rw [emit_flat hb, if_pos ⟨rfl, fb⟩]
    exact mul_pos hchi (R.absorbing.vol_pos b hb)

theorem Regular.fission_pos (R : Regular d aL aR) :
    ∃ x y, x < d.cells * d.energies ∧ y < d.cells * d.energies ∧ 0 < fission d x y := by
  obtain ⟨i, g, hi, hg, hp⟩ := R.multiplying.somewhere
  obtain ⟨h, hh, hc⟩ := R.multiplying.emitted i g hi hg hp
  refine ⟨i + h * d.cells, i + g * d.cells, flat_lt hi hh, flat_lt hi hg, ?_⟩
  rw [fission_flat hi hi, if_pos rfl]
  exact mul_pos (mul_pos hc (R.absorbing.vol_pos i hi)) hp

theorem Regular.setting (R : Regular d aL aR) : ∃ sol, Setting (d.cells * d.energies) (loss d aL aR) (fission d) (emit d) (prod d) sol := by
  obtain ⟨h1, h2⟩ := loss_inverse R.sound R.absorbing
  choose sol hsol using h2
  exact ⟨sol, hsol, h1, loss_off R.sound R.absorbing, fission_factored R.absorbing.vol_pos R.multiplying, R.connected, R.fission_pos⟩

end

end Verif.Solve
