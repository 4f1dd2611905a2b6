import Verif.Calc.Driven
import Mathlib.Analysis.SpecificLimits.Basic

/-! # Sums over all modes solve the equation with a source -/

namespace Verif.Calc

open Verif Outcome Finset Solve Eigen Matrix Filter Topology

/-- the table as a matrix -/
def mat (n : Nat) (A : Nat → Nat → ℝ) : Matrix (Fin n) (Fin n) ℝ := fun i j => A i j

/-- the first `n` values as a vector -/
def vec (n : Nat) (x : Nat → ℝ) : Fin n → ℝ := fun i => x i

theorem mat_mulVec {n : Nat} (A : Nat → Nat → ℝ) (x : Nat → ℝ) : mat n A *ᵥ vec n x = vec n (act n A x) := by
  funext i
  exact (Finset.sum_range (fun q => A i q * x q)).symm

theorem mat_vecMul {n : Nat} (A : Nat → Nat → ℝ) (x : Nat → ℝ) : vec n x ᵥ* mat n A = vec n (act n (fun p q => A q p) x) := by
  funext i
  refine Eq.trans ?_ (Finset.sum_range (fun q => A q i * x q)).symm
  change ∑ j : Fin n, x j * A j i = _
  exact Finset.sum_congr rfl (fun (j : Fin n) _ => mul_comm (x j) (A j i))

theorem vec_dot {n : Nat} (x y : Nat → ℝ) : vec n x ⬝ᵥ vec n y = dot n x y := (Finset.sum_range (fun q => x q * y q)).symm

theorem vec_ne {n : Nat} {x : Nat → ℝ} (h : ∃ p, p < n ∧ x p ≠ 0) : vec n x ≠ 0 := by
  obtain ⟨p, hp, hx⟩ := h
  exact fun e => hx (congrFun e ⟨p, hp⟩)

/-- A complete set of modes of the pair `M`, `F` of size `n`. -/
structure AllModes (n : Nat) (M F : Nat → Nat → ℝ) (k : Nat → ℝ) (φ ψ : Nat → Nat → ℝ) : Prop where
  k0 : ∀ m, m < n → k m ≠ 0
  k1 : ∀ m, m < n → k m ≠ 1
  inj : ∀ m m', m < n → m' < n → k m = k m' → m = m'
  fwd : ∀ m, m < n → ∀ p, p < n → act n M (φ m) p = act n F (φ m) p / k m
  adj : ∀ m, m < n → ∀ p, p < n → act n (fun p q => M q p) (ψ m) p = act n (fun p q => F q p) (ψ m) p / k m
  fwd0 : ∀ m, m < n → ∃ p, p < n ∧ φ m p ≠ 0
  adj0 : ∀ m, m < n → ∃ p, p < n ∧ ψ m p ≠ 0

variable {n : Nat} {M F : Nat → Nat → ℝ} {k : Nat → ℝ} {φ ψ : Nat → Nat → ℝ}

theorem det_unit (hM : InversePositive n M) : IsUnit (mat n M).det := by
  rw [isUnit_iff_ne_zero]
  intro h
  obtain ⟨v, hv, hz⟩ := Matrix.exists_mulVec_eq_zero_iff.2 h
  have ex : ∀ v : Fin n → ℝ, v = vec n (fun p => if h : p < n then v ⟨p, h⟩ else 0) := by
    intro v
    funext i
    simp [vec]
  rw [ex v, mat_mulVec] at hz
  refine hv ?_
  rw [ex v]
  funext i
  have h1 := hM (fun p => if h : p < n then v ⟨p, h⟩ else 0) (fun p hp => (congrFun hz ⟨p, hp⟩).ge) i i.2
  have h2 := hM (fun p => -(if h : p < n then v ⟨p, h⟩ else 0)) (fun p hp => by
    have := congrFun hz ⟨p, hp⟩
    simp only [vec, act, mul_neg, sum_neg_distrib, Pi.zero_apply] at this ⊢
    rw [this, neg_zero]) i i.2
  exact le_antisymm (neg_nonneg.1 h2) h1

theorem AllModes.fwd_mat (h : AllModes n M F k φ ψ) (m : Fin n) : mat n M *ᵥ vec n (φ m) = (k m)⁻¹ • (mat n F *ᵥ vec n (φ m)) := by
  rw [mat_mulVec, mat_mulVec]
  funext i
  exact (h.fwd m m.2 i i.2).trans (by rw [div_eq_inv_mul]; rfl)

theorem AllModes.adj_mat (h : AllModes n M F k φ ψ) (m : Fin n) : vec n (ψ m) ᵥ* mat n M = (k m)⁻¹ • (vec n (ψ m) ᵥ* mat n F) := by
  rw [mat_vecMul, mat_vecMul]
  funext i
  exact (h.adj m m.2 i i.2).trans (by rw [div_eq_inv_mul]; rfl)

theorem AllModes.injective (h : AllModes n M F k φ ψ) : Function.Injective (fun m : Fin n => k m) :=
  fun a b e => Fin.ext (h.inj a b a.2 b.2 e)

theorem AllModes.pairing (h : AllModes n M F k φ ψ) (hM : InversePositive n M) {m : Nat} (hm : m < n) : dot n (ψ m) (act n F (φ m)) ≠ 0 := by
  rw [← vec_dot, ← mat_mulVec]
  exact modes_pairing (k := fun m : Fin n => k m) (φ := fun m => vec n (φ m)) (ψ := fun m => vec n (ψ m)) (det_unit hM)
    (fun m => h.k0 m m.2) h.injective h.fwd_mat h.adj_mat (fun m => vec_ne (h.fwd0 m m.2)) (fun m => vec_ne (h.adj0 m m.2)) ⟨m, hm⟩

/-- The sum over all modes solves `M x = F x + b`. -/
theorem AllModes.solves (h : AllModes n M F k φ ψ) (hM : InversePositive n M) (b : Nat → ℝ) {Φ : Nat → ℝ}
    (hΦ : ∀ p, p < n → Φ p = ∑ m ∈ range n, k m / (1 - k m) * (dot n (ψ m) b / dot n (ψ m) (act n F (φ m))) * φ m p) :
    ∀ p, p < n → act n M Φ p = act n F Φ p + b p := by
  have := modal_expansion (k := fun m : Fin n => k m) (φ := fun m => vec n (φ m)) (ψ := fun m => vec n (ψ m)) (det_unit hM)
    (fun m => h.k0 m m.2) (fun m => h.k1 m m.2) h.injective h.fwd_mat h.adj_mat (fun m => vec_ne (h.fwd0 m m.2))
    (fun m => vec_ne (h.adj0 m m.2)) (vec n b) (Φ := vec n Φ) (by
      funext p
      rw [show vec n Φ p = Φ p from rfl, hΦ p p.2, Finset.sum_range, Finset.sum_apply]
      refine Finset.sum_congr rfl (fun m _ => ?_)
      rw [vec_dot, mat_mulVec, vec_dot]
      rfl)
  intro p hp
  rw [mat_mulVec, mat_mulVec] at this
  have := congrFun this ⟨p, hp⟩
  simp only [vec, Pi.sub_apply] at this
  linarith

/-- `M x = F x` has only the solution zero. -/
theorem AllModes.unique (h : AllModes n M F k φ ψ) (hM : InversePositive n M) {x : Nat → ℝ}
    (hx : ∀ p, p < n → act n M x p = act n F x p) : ∀ p, p < n → x p = 0 := by
  have hdet := det_unit hM
  have hx' : mat n M *ᵥ vec n x = mat n F *ᵥ vec n x := by
    rw [mat_mulVec, mat_mulVec]
    funext i
    exact hx i i.2
  have hψi : LinearIndependent ℝ (fun m : Fin n => vec n (ψ m)) := by
    refine modes_independent (M := (mat n M)ᵀ) (F := (mat n F)ᵀ) (k := fun m : Fin n => k m) (by rwa [Matrix.det_transpose]) (fun m => h.k0 m m.2)
      h.injective (fun m => ?_) (fun m => vec_ne (h.adj0 m m.2))
    rw [mulVec_transpose, mulVec_transpose, h.adj_mat m]
  have hz : mat n F *ᵥ vec n x = 0 := by
    refine functional_zero hψi (fun m => ?_)
    have e1 : vec n (ψ m) ⬝ᵥ (mat n M *ᵥ vec n x) = (k m)⁻¹ * (vec n (ψ m) ⬝ᵥ (mat n F *ᵥ vec n x)) := by
      rw [dotProduct_mulVec, h.adj_mat m, smul_dotProduct, smul_eq_mul, ← dotProduct_mulVec]
    rw [hx'] at e1
    have e2 : (1 - (k m)⁻¹) * (vec n (ψ m) ⬝ᵥ (mat n F *ᵥ vec n x)) = 0 := by rw [sub_mul, one_mul, ← e1, sub_self]
    rw [dotProduct_comm]
    rcases mul_eq_zero.1 e2 with e | e
    · exact absurd (inv_eq_one.1 (sub_eq_zero.1 e).symm) (h.k1 m m.2)
    · exact e
  have : vec n x = (mat n M)⁻¹ *ᵥ (mat n M *ᵥ vec n x) := by
    rw [mulVec_mulVec, Matrix.nonsing_inv_mul _ hdet, one_mulVec]
  rw [hx', hz, mulVec_zero] at this
  intro p hp
  exact congrFun this ⟨p, hp⟩

theorem act_sum {N : Nat} (A : Nat → Nat → ℝ) (c : Nat → ℝ) (p : Nat) :
    act n A (fun q => ∑ m ∈ range N, c m * φ m q) p = ∑ m ∈ range N, c m * act n A (φ m) p := by
  unfold act
  simp only [Finset.mul_sum]
  rw [sum_comm]
  exact sum_congr rfl (fun m _ => sum_congr rfl (fun q _ => by ring))

theorem act_sub (A : Nat → Nat → ℝ) (x y : Nat → ℝ) (p : Nat) : act n A (fun q => x q - y q) p = act n A x p - act n A y p := by
  unfold act
  rw [← sum_sub_distrib]
  exact sum_congr rfl (fun q _ => by ring)

/-- If all factors are between zero and one, a source gives no negative flux. -/
theorem AllModes.nonneg (h : AllModes n M F k φ ψ) (hM : InversePositive n M) (hF : ∀ p q, p < n → q < n → 0 ≤ F p q)
    (hk : ∀ m, m < n → 0 < k m ∧ k m < 1) {b : Nat → ℝ} (hb : ∀ p, p < n → 0 ≤ b p) {c Φ : Nat → ℝ}
    (hΦ : ∀ p, p < n → Φ p = ∑ m ∈ range n, c m * φ m p) (hs : ∀ p, p < n → act n M Φ p = act n F Φ p + b p) :
    ∀ p, p < n → 0 ≤ Φ p := by
  have key : ∀ j : Nat, ∀ p, p < n → 0 ≤ Φ p - ∑ m ∈ range n, c m * k m ^ j * φ m p := by
    intro j
    induction j with
    | zero =>
      intro p hp
      rw [hΦ p hp]
      simp
    | succ j ih =>
      refine hM (fun p => Φ p - ∑ m ∈ range n, c m * k m ^ (j + 1) * φ m p) (fun p hp => ?_)
      rw [act_sub M Φ, act_sum M (fun m => c m * k m ^ (j + 1)), hs p hp]
      have e : ∑ m ∈ range n, c m * k m ^ (j + 1) * act n M (φ m) p = act n F (fun q => ∑ m ∈ range n, c m * k m ^ j * φ m q) p := by
        rw [act_sum F (fun m => c m * k m ^ j)]
        refine sum_congr rfl (fun m hm => ?_)
        have hm := mem_range.1 hm
        rw [h.fwd m hm p hp, pow_succ]
        have := h.k0 m hm
        field_simp
      rw [e]
      have e2 : act n F Φ p - act n F (fun q => ∑ m ∈ range n, c m * k m ^ j * φ m q) p =
          act n F (fun q => Φ q - ∑ m ∈ range n, c m * k m ^ j * φ m q) p := (act_sub F Φ _ p).symm
      have e3 : 0 ≤ act n F (fun q => Φ q - ∑ m ∈ range n, c m * k m ^ j * φ m q) p :=
        sum_nonneg (fun q hq => mul_nonneg (hF p q hp (mem_range.1 hq)) (ih q (mem_range.1 hq)))
      have := hb p hp
      linarith
  intro p hp
  have ht : Tendsto (fun j : Nat => Φ p - ∑ m ∈ range n, c m * k m ^ j * φ m p) atTop (𝓝 (Φ p - ∑ m ∈ range n, c m * 0 * φ m p)) := by
    refine tendsto_const_nhds.sub (tendsto_finsetSum _ (fun m hm => ?_))
    have := hk m (mem_range.1 hm)
    exact ((tendsto_pow_atTop_nhds_zero_of_lt_one this.1.le this.2).const_mul _).mul_const _
  simp only [mul_zero, zero_mul, sum_const_zero, sub_zero] at ht
  exact ge_of_tendsto' ht (fun j => key j p hp)

/-! ### the diffusion equation -/

variable {d : Diffusion.Data} {aL aR : ℝ}

theorem source_iff (S : Sound d aL aR) {src : Nat → Nat → ℝ} {Φ : Nat → ℝ} :
    (∀ p, p < d.cells * d.energies → act (d.cells * d.energies) (loss d aL aR) Φ p =
      act (d.cells * d.energies) (fission d) Φ p + src (p / d.cells) (p % d.cells)) ↔ SourceEq d aL aR src Φ := by
  obtain ⟨J, hJ, h⟩ := loss_apply S Φ
  have hc : 0 < d.cells := by have := S.cells; omega
  have key : ∀ g i, g < d.energies → i < d.cells →
      ((act (d.cells * d.energies) (loss d aL aR) Φ (i + g * d.cells) = act (d.cells * d.energies) (fission d) Φ (i + g * d.cells) +
          src ((i + g * d.cells) / d.cells) ((i + g * d.cells) % d.cells)) ↔
        d.tot.m g i * d.vol.v i * Φ (i + g * d.cells) + J g (i + 1) - J g i =
          d.vol.v i * (scatterIn d Φ g i + d.chi.m g i * production d Φ i) + src g i) := by
    intro g i hg hi
    rw [h g i hg hi, fission_apply Φ hi, Nat.add_mul_div_right _ _ hc, Nat.div_eq_of_lt hi, zero_add, Nat.add_mul_mod_self_right,
      Nat.mod_eq_of_lt hi, mul_add]
    constructor <;> intro e <;> linarith
  constructor
  · exact fun e => ⟨J, hJ, fun g i hg hi => (key g i hg hi).1 (e _ (flat_lt hi hg))⟩
  · rintro ⟨J', hJ', e⟩ p hp
    obtain ⟨i, g, hi, hg, rfl⟩ := flat_surj hp
    refine (key g i hg hi).2 ?_
    have u := Currents.unique S hJ hJ'
    rw [u g _ hg (by omega), u g _ hg (by omega)]
    exact e g i hg hi

theorem weight_one (h1 : d.energies = 1) (φ ψ : Nat → ℝ) :
    weight d φ ψ = dot (d.cells * d.energies) ψ (act (d.cells * d.energies) (fission d) φ) := by
  unfold weight dot
  rw [h1, Nat.mul_one]
  refine sum_congr rfl (fun i hi => ?_)
  have hi := mem_range.1 hi
  have := fission_apply (d := d) φ (g := 0) hi
  rw [zero_mul, add_zero, h1, Nat.mul_one] at this
  rw [this, production, h1]
  simp only [sum_range_one, zero_mul, add_zero]
  ring

theorem dot_point (h1 : d.energies = 1) {pos : Nat} (hp : pos < d.cells) (ψ : Nat → ℝ) (s : ℝ) :
    dot (d.cells * d.energies) ψ (fun p => pointSource d s 0 pos (p / d.cells) (p % d.cells)) = s * d.vol.v pos * ψ pos := by
  unfold dot
  rw [h1, Nat.mul_one, sum_eq_single pos]
  · dsimp only
    rw [Nat.div_eq_of_lt hp, Nat.mod_eq_of_lt hp, pointSource, if_pos ⟨rfl, rfl⟩]
    ring
  · intro p hp' hne
    have hp' := mem_range.1 hp'
    dsimp only
    rw [Nat.div_eq_of_lt hp', Nat.mod_eq_of_lt hp', pointSource, if_neg (by rintro ⟨-, h⟩; exact hne h), mul_zero]
  · exact fun h => absurd (mem_range.2 hp) h

/-! ### what the criticality calculations keep -/

open Mesh

theorem loop_change {body : Nat → Grid → Outcome Grid} {n : Nat} {g g' : Grid} (I : Grid → Prop) (h0 : I g)
    (hb : ∀ i x x', I x → body i x = ok x' → I x') (h : loop body n g = ok g') : I g' :=
  loop_inv_of_ok (fun _ x => I x) h0 (fun i x x' _ hx e => hb i x x' hx e) h

/-- same body and temperatures -/
def Tied (g g' : Grid) : Prop := SameBody g g' ∧ ∀ i, i < g.cells → (g'.mats.v i).T = (g.mats.v i).T

theorem Tied.refl (g : Grid) : Tied g g := ⟨SameBody.refl g, fun _ _ => rfl⟩

theorem Tied.trans {a b c : Grid} (h : Tied a b) (k : Tied b c) : Tied a c :=
  ⟨h.1.trans k.1, fun i hi => (k.2 i (by rw [h.1.cells]; exact hi)).trans (h.2 i hi)⟩

theorem Tied.change {g x x' : Grid} {f : Material → Material} {i : Nat} (h : Tied g x) (e : Mesh.change f i x = ok x')
    (hf : ∀ m, SameMaterial m (f m) ∧ (f m).T = m.T) : Tied g x' := by
  refine h.trans ?_
  by_cases hi : i < x.mats.n
  · rw [change_ok hi] at e
    cases e
    refine ⟨⟨rfl, rfl, rfl, rfl, rfl, fun j hj => ?_⟩, fun j hj => ?_⟩
    · dsimp only
      by_cases hj' : j = i
      · subst hj'; rw [Function.update_self]; exact (hf _).1
      · rw [Function.update_of_ne hj']; exact SameMaterial.refl _
    · dsimp only
      by_cases hj' : j = i
      · subst hj'; rw [Function.update_self]; exact (hf _).2
      · rw [Function.update_of_ne hj']
  · rw [change_ub f (by omega)] at e
    cases e

theorem setFluxes_tied {t : Box Fl} {g g' : Grid} (h : setFluxes t g = ok g') : Tied g g' :=
  loop_change (Tied g) (Tied.refl g) (fun i x x' hx e => by
    obtain ⟨y, -, e⟩ := bind_eq_ok.1 e
    exact hx.change e (fun m => ⟨⟨rfl, rfl, rfl, rfl, rfl, rfl, rfl, rfl, rfl⟩, rfl⟩)) h

theorem setAdjoints_tied {t : Box Fl} {g g' : Grid} (h : setAdjoints t g = ok g') : Tied g g' :=
  loop_change (Tied g) (Tied.refl g) (fun i x x' hx e => by
    obtain ⟨y, -, e⟩ := bind_eq_ok.1 e
    exact hx.change e (fun m => ⟨⟨rfl, rfl, rfl, rfl, rfl, rfl, rfl, rfl, rfl⟩, rfl⟩)) h

theorem setHeatSources_tied {t : Vec ℝ} {g g' : Grid} (h : setHeatSources t g = ok g') : Tied g g' :=
  loop_change (Tied g) (Tied.refl g) (fun i x x' hx e => by
    obtain ⟨y, -, e⟩ := bind_eq_ok.1 e
    exact hx.change e (fun m => ⟨⟨rfl, rfl, rfl, rfl, rfl, rfl, rfl, rfl, rfl⟩, rfl⟩)) h

theorem Tied.modes {g g' : Grid} (h : Tied g g') (a b : Nat) : Tied g { g' with nForward := a, nAdjoint := b } :=
  ⟨⟨h.1.geom, h.1.bounds, h.1.cells, h.1.energies, h.1.mats_n, h.1.mats⟩, h.2⟩

theorem diffusionSolve_tied {t : Tools} {o : Settings} {p p' : Plant} {old : Vec ℝ} (h : diffusionSolve t o p = ok (p', old)) :
    Tied p.grid p'.grid ∧ p'.source = p.source := by
  unfold diffusionSolve at h
  obtain ⟨a, e1, h⟩ := bind_eq_ok.1 h
  obtain ⟨d, e2, h⟩ := bind_eq_ok.1 h
  obtain ⟨vol, e3, h⟩ := bind_eq_ok.1 h
  obtain ⟨st, e4, h⟩ := bind_eq_ok.1 h
  dsimp only at h
  have hw : ∀ {p1 : Plant}, writeForward st o.energies p = ok p1 → Tied p.grid p1.grid ∧ p1.source = p.source := by
    intro p1 e
    unfold writeForward at e
    obtain ⟨g, e6, e⟩ := bind_eq_ok.1 e
    obtain ⟨g', e7, e⟩ := bind_eq_ok.1 e
    cases e
    exact ⟨((setFluxes_tied e6).modes st.forward.modes g.nAdjoint).trans (setHeatSources_tied e7), rfl⟩
  have ha : ∀ {p1 : Plant}, writeAdjoint st o.energies p = ok p1 → Tied p.grid p1.grid ∧ p1.source = p.source := by
    intro p1 e
    unfold writeAdjoint at e
    obtain ⟨g, e6, e⟩ := bind_eq_ok.1 e
    cases e
    exact ⟨(setAdjoints_tied e6).modes g.nForward st.adjoint.modes, rfl⟩
  cases hd : o.direction with
  | adjoint =>
    rw [hd] at h
    obtain ⟨p1, e5, h⟩ := bind_eq_ok.1 h
    cases h
    exact ha e5
  | forward =>
    rw [hd] at h
    obtain ⟨p1, e5, h⟩ := bind_eq_ok.1 h
    cases h
    exact hw e5
  | undefined =>
    rw [hd] at h
    obtain ⟨p1, e5, h⟩ := bind_eq_ok.1 h
    cases h
    exact hw e5

theorem ads_driven {tl : Tools} {o : Settings} {p p' : Plant} (h : ads tl o p = ok p') :
    ∃ q, driven q = ok p' ∧ Tied p.grid q.grid ∧ q.source = p.source := by
  unfold ads at h
  obtain ⟨⟨x, ox⟩, e1, h⟩ := bind_eq_ok.1 h
  obtain ⟨⟨y, oy⟩, e2, h⟩ := bind_eq_ok.1 h
  have h1 := diffusionSolve_tied e1
  have h2 := diffusionSolve_tied e2
  exact ⟨y, h, h1.1.trans h2.1, h2.2.trans h1.2⟩

theorem DiffusionOn.tied {g g' : Grid} {alb : Vec ℝ} (h : Tied g g') (on : DiffusionOn g alb (fun i => (g.mats.v i).T) d) :
    DiffusionOn g' alb (fun i => (g'.mats.v i).T) d := by
  obtain ⟨b, ht⟩ := h
  refine ⟨on.wf, by rw [b.cells]; exact on.cells, by rw [b.energies]; exact on.energies, by rw [b.geom]; exact on.geom, on.albedo,
    fun i hi => ?_, fun i hi => ?_, fun i hi => ?_, fun e i he hi => ?_, fun e i he hi => ?_, fun e i he hi => ?_, fun e i he hi => ?_,
    fun e i he hi => ?_, fun e f i he hf hi => ?_⟩ <;> rw [b.cells] at hi <;> (try rw [b.energies] at he)
  · rw [b.bounds]; exact on.size i hi
  · rw [b.bounds, b.geom]; exact on.vol i hi
  · rw [b.bounds, b.geom]; exact on.surf i hi
  · rw [ht i hi, (b.mats i hi).diff]; exact on.D e i he hi
  · rw [ht i hi, (b.mats i hi).tot]; exact on.tot e i he hi
  · rw [ht i hi, (b.mats i hi).fiss]; exact on.fiss e i he hi
  · rw [ht i hi, (b.mats i hi).nu]; exact on.nu e i he hi
  · rw [ht i hi, (b.mats i hi).chi]; exact on.chi e i he hi
  · rw [b.energies] at hf ⊢
    rw [ht i hi, (b.mats i hi).scatt]; exact on.scatt e f i he hf hi

theorem Complete.same {m m' : Material} {E : Nat} (h : SameMaterial m m') (c : Complete m E) : Complete m' E :=
  ⟨by rw [h.tot]; exact c.tot, by rw [h.fiss]; exact c.fiss, by rw [h.scatt]; exact c.scatt, by rw [h.nu]; exact c.nu, by rw [h.chi]; exact c.chi⟩

theorem driven_modes {q p' : Plant} (h : driven q = ok p') : SameModes q p' ∧ p'.source = q.source := by
  unfold driven at h
  obtain ⟨s, -, h⟩ := bind_eq_ok.1 h
  obtain ⟨vol, -, h⟩ := bind_eq_ok.1 h
  obtain ⟨adj, -, h⟩ := bind_eq_ok.1 h
  obtain ⟨qq, -, h⟩ := bind_eq_ok.1 h
  obtain ⟨fwd, e1, h⟩ := bind_eq_ok.1 h
  obtain ⟨P, -, h⟩ := bind_eq_ok.1 h
  obtain ⟨x, -, h⟩ := bind_eq_ok.1 h
  obtain ⟨r, -, h⟩ := bind_eq_ok.1 h
  obtain ⟨t, e2, h⟩ := bind_eq_ok.1 h
  obtain ⟨g, e3, h⟩ := bind_eq_ok.1 h
  cases h
  have ht : t.c = q.grid.cells := (totalFluxes_size e2).2.trans (box_size e1).2.1
  obtain ⟨g', e4, c1, c2, c3, c4, c5, c6, c7, c8⟩ := setTotals_ok ht (setTotals_cells ht e3)
  rw [e4] at e3
  cases e3
  exact ⟨⟨rfl, rfl, rfl, rfl, c1, c2, c3, c4, c5, c6, c7, fun i hi => ⟨_, by rw [c8 i, if_pos hi]⟩⟩, rfl⟩

theorem ads_outside {tl : Tools} {o : Settings} {p p1 : Plant} {s0 s1 : ℝ × Nat × Nat} (h1 : ads tl o { p with source := s0 } = ok p1)
    (hc : p.grid.cells < 4294967296) (he : p.grid.energies < 4294967296)
    (h : ¬ (-1 < s1.1 ∧ s1.1 < 4294967296 ∧ 1 ≤ s1.2.1 ∧ s1.2.1 ≤ p.grid.cells ∧ 1 ≤ s1.2.2 ∧ s1.2.2 ≤ p.grid.energies)) :
    ads tl o { p with source := s1 } = ub := by
  unfold ads at h1
  obtain ⟨⟨x, ox⟩, e1, h1⟩ := bind_eq_ok.1 h1
  obtain ⟨⟨y, oy⟩, e2, h1⟩ := bind_eq_ok.1 h1
  have t : Tied p.grid y.grid := (diffusionSolve_tied e1).1.trans (diffusionSolve_tied e2).1
  unfold ads
  have e1' := diffusionSolve_source e1 s1
  dsimp only at e1' h1
  rw [e1', ok_bind]
  dsimp only
  rw [diffusionSolve_source e2 s1, ok_bind]
  unfold driven at h1 ⊢
  obtain ⟨s, -, h1⟩ := bind_eq_ok.1 h1
  obtain ⟨vol, ev, h1⟩ := bind_eq_ok.1 h1
  obtain ⟨adj, ea, h1⟩ := bind_eq_ok.1 h1
  dsimp only
  by_cases hs : -1 < s1.1 ∧ s1.1 < 4294967296
  · have hb := box_size (show modeBox _ _ _ = _ from ea)
    rw [show toUnsigned s1.1 = ok ⌊s1.1⌋₊ from if_pos hs, ok_bind, ev, ok_bind, ea, ok_bind]
    have : adjointSource ⌊s1.1⌋₊ (decrement s1.2.1) (decrement s1.2.2) vol adj = ub := by
      refine if_neg (fun hh => h ?_)
      rw [hb.1, hb.2.1, t.1.cells, t.1.energies] at hh
      unfold decrement at hh
      refine ⟨hs.1, hs.2, ?_, ?_, ?_, ?_⟩ <;> grind
    rw [this, ub_bind]
  · rw [show toUnsigned s1.1 = ub from if_neg hs, ub_bind]

theorem Modal.back {q p' : Plant} {N : Nat} {k : Nat → ℝ} {φ ψ : Nat → Nat → ℝ} (h : SameModes q p') (m : Modal p' N k φ ψ) : Modal q N k φ ψ := by
  refine ⟨by rw [← h.nForward]; exact m.forward, by rw [← h.nAdjoint]; exact m.adjoint, by rw [← h.kForward]; exact m.k,
    fun i hi => ?_, fun i hi => ?_⟩
  · obtain ⟨x, e⟩ := h.mats i hi
    have := m.flux i (by rw [h.cells]; exact hi)
    rw [e, h.energies, h.cells] at this
    exact this
  · obtain ⟨x, e⟩ := h.mats i hi
    have := m.adj i (by rw [h.cells]; exact hi)
    rw [e, h.energies, h.cells] at this
    exact this

end Verif.Calc
