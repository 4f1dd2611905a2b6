import Verif.Solve.Spec
import Verif.Solve.Model
import Verif.Eigen.Graph
import Verif.Eigen.Props
import Verif.Core.Writes

/-! From the eigenvalue solver to the stored results. -/

namespace Verif.Solve

open Verif Outcome Finset Eigen Filter Topology

noncomputable section

open scoped Classical

variable {N : Nat} {M F : Mat Fl} {Mr A L Q : Nat → Nat → ℝ} {qr : List Fl → Nat → Fl} {lib : Numerics}

theorem solves_of_lib (hlib : SolvesRegular lib) (hr : M.r = N) (hc : M.c = N) (hM : Entries N Mr M)
    (hs : ∀ b : Nat → ℝ, ∃ x : Nat → ℝ, ∀ p, p < N → act N Mr x p = b p) : Solves N Mr (lib.qr M) :=
  hlib N M Mr hr hc hM hs

theorem norm_one {x : Nat → ℝ} (h0 : ∀ i, i < N → 0 ≤ x i) (h : ∃ i, i < N ∧ 0 < x i) :
    0 < oneNorm N x ∧ (∀ i, i < N → 0 ≤ x i / oneNorm N x) ∧ ∑ i ∈ range N, x i / oneNorm N x = 1 := by
  have e : oneNorm N x = ∑ i ∈ range N, x i := sum_congr rfl (fun i hi => abs_of_nonneg (h0 i (mem_range.1 hi)))
  obtain ⟨i, hi, hp⟩ := h
  have hpos : 0 < oneNorm N x := by
    rw [e]
    exact sum_pos' (fun i hi => h0 i (mem_range.1 hi)) ⟨i, mem_range.2 hi, hp⟩
  refine ⟨hpos, fun i hi => div_nonneg (h0 i hi) hpos.le, ?_⟩
  rw [← sum_div, ← e, div_self hpos.ne']

/-- the power iteration with the matrices -/
def Powers (N : Nat) (Mr A : Nat → Nat → ℝ) (κ : Nat → ℝ) (y : Nat → Nat → ℝ) : Prop :=
  ∃ x : Nat → Nat → ℝ, κ 0 = 1 ∧ (∀ i, i < N → x 0 i = 1) ∧ (∀ i, i < N → act N Mr (x 1) i = 1) ∧
    (∀ j i, i < N → act N Mr (x (j + 2)) i = act N A (x (j + 1)) i / κ (j + 1)) ∧
    (∀ j, κ (j + 1) = κ j * (dot N (act N A (x (j + 1))) (act N A (x (j + 1))) / dot N (act N A (x j)) (act N A (x (j + 1))))) ∧
    ∀ j i, i < N → y j i = x j i / ∑ q ∈ range N, |x j q|

theorem Powers.generations {cells energies : Nat} {κ : Nat → ℝ} {y : Nat → Nat → ℝ} (H : Powers (cells * energies) Mr A κ y)
    {src : (Nat → ℝ) → Nat → Nat → ℝ} {Ans : (Nat → Nat → ℝ) → (Nat → ℝ) → Prop}
    (hsrc : ∀ φ g i, g < energies → i < cells → act (cells * energies) A φ (i + g * cells) = src φ g i)
    (hAns : ∀ q φ, (∀ g i, g < energies → i < cells → act (cells * energies) Mr φ (i + g * cells) = q g i) → Ans q φ) :
    Generations cells energies src Ans κ y := by
  obtain ⟨x, h1, h2, h3, h4, h5, h6⟩ := H
  have hdot : ∀ a b : Nat → ℝ, dot (cells * energies) (act (cells * energies) A a) (act (cells * energies) A b) =
      ∑ g ∈ range energies, ∑ i ∈ range cells, src a g i * src b g i := by
    intro a b
    unfold dot
    rw [sum_flat]
    refine sum_congr rfl (fun g hg => sum_congr rfl (fun i hi => ?_))
    rw [hsrc a g i (mem_range.1 hg) (mem_range.1 hi), hsrc b g i (mem_range.1 hg) (mem_range.1 hi)]
  refine ⟨x, h1, h2, hAns _ _ (fun g i hg hi => h3 _ (flat_lt hi hg)), fun j => hAns _ _ (fun g i hg hi => ?_), fun j => ?_, h6⟩
  · rw [h4 j _ (flat_lt hi hg), hsrc _ _ _ hg hi]
  · rw [← hdot, ← hdot, h5 j]

theorem inverse_inj (hM : InversePositive N Mr) {x y : Nat → ℝ} (h : ∀ p, p < N → act N Mr x p = act N Mr y p) :
    ∀ p, p < N → x p = y p := by
  have key : ∀ a b : Nat → ℝ, (∀ p, p < N → act N Mr a p = act N Mr b p) → ∀ p, p < N → b p ≤ a p := by
    intro a b e p hp
    have := hM (fun p => a p - b p) (fun i hi => le_of_eq ?_) p hp
    · linarith
    · have : act N Mr (fun p => a p - b p) i = act N Mr a i - act N Mr b i := by
        unfold act
        rw [← sum_sub_distrib]
        exact sum_congr rfl (fun q _ => by ring)
      rw [this, e i hi, sub_self]
  exact fun p hp => le_antisymm (key y x (fun p hp => (h p hp).symm) p hp) (key x y h p hp)

theorem generations_unique {cells energies : Nat} {src : (Nat → ℝ) → Nat → Nat → ℝ} {Ans : (Nat → Nat → ℝ) → (Nat → ℝ) → Prop}
    (hsrc : ∀ φ ψ g i, g < energies → i < cells → (∀ p, p < cells * energies → φ p = ψ p) → src φ g i = src ψ g i)
    (hAns : ∀ q q' φ ψ, (∀ g i, g < energies → i < cells → q g i = q' g i) → Ans q φ → Ans q' ψ → ∀ p, p < cells * energies → φ p = ψ p)
    {κ κ' : Nat → ℝ} {y y' : Nat → Nat → ℝ} (h : Generations cells energies src Ans κ y) (h' : Generations cells energies src Ans κ' y') :
    ∀ j, κ j = κ' j ∧ ∀ p, p < cells * energies → y j p = y' j p := by
  obtain ⟨x, k0, x0, x1, xn, kn, hy⟩ := h
  obtain ⟨x', k0', x0', x1', xn', kn', hy'⟩ := h'
  have key : ∀ j, (κ j = κ' j ∧ ∀ p, p < cells * energies → x j p = x' j p) ∧ ∀ p, p < cells * energies → x (j + 1) p = x' (j + 1) p := by
    intro j
    induction j with
    | zero => exact ⟨⟨by rw [k0, k0'], fun p hp => by rw [x0 p hp, x0' p hp]⟩, hAns _ _ _ _ (fun _ _ _ _ => rfl) x1 x1'⟩
    | succ j ih =>
      obtain ⟨⟨e1, e2⟩, e3⟩ := ih
      have s0 := fun g i hg hi => hsrc (x j) (x' j) g i hg hi e2
      have s1 := fun g i hg hi => hsrc (x (j + 1)) (x' (j + 1)) g i hg hi e3
      have ek : κ (j + 1) = κ' (j + 1) := by
        rw [kn, kn', e1]
        congr 2 <;> refine sum_congr rfl (fun g hg => sum_congr rfl (fun i hi => ?_))
        · rw [s1 g i (mem_range.1 hg) (mem_range.1 hi)]
        · rw [s1 g i (mem_range.1 hg) (mem_range.1 hi), s0 g i (mem_range.1 hg) (mem_range.1 hi)]
      exact ⟨⟨ek, e3⟩, hAns _ _ _ _ (fun g i hg hi => by rw [s1 g i hg hi, ek]) (xn j) (xn' j)⟩
  intro j
  obtain ⟨⟨e1, e2⟩, -⟩ := key j
  refine ⟨e1, fun p hp => ?_⟩
  rw [hy j p hp, hy' j p hp, e2 p hp, sum_congr rfl (fun q hq => by rw [e2 q (mem_range.1 hq)])]

/-- everything about the iteration in one place -/
theorem run_all (hsq : Square N M F) (hF : Entries N A F) (hs : Solves N Mr qr) (hM : InversePositive N Mr)
    (hz : OffDiagonal N Mr) (hf : Factored N A L Q) (hc : Connected N Mr L Q) (hA0 : ∃ i j, i < N ∧ j < N ∧ 0 < A i j) :
    ∃ (kt : ℝ) (f : Nat → ℝ) (κ : Nat → ℝ) (y : Nat → Nat → ℝ), 0 < kt ∧ Eigenpair N Mr A kt f ∧ (∀ i, i < N → 0 ≤ f i) ∧
      ∑ i ∈ range N, f i = 1 ∧
      (∀ k ψ, Eigenpair N Mr A k ψ → (∀ i, i < N → 0 ≤ ψ i) → k = kt ∧ ∃ c, ∀ i, i < N → ψ i = c * f i) ∧
      Tendsto κ atTop (𝓝 kt) ∧ (∀ i, i < N → Tendsto (fun j => y j i) atTop (𝓝 (f i))) ∧
      (∀ j i, i < N → 0 ≤ y j i) ∧ (∀ j, ∑ i ∈ range N, y j i = 1) ∧
      (∀ j p, p < N → Emits N Q p → 0 < act N Q (y j) p) ∧ Powers N Mr A κ y ∧
      (∀ maxIter acc k φ, sourceIteration qr M F maxIter acc = ok (k, φ) → ∃ n : Nat, (n : Int) + 1 ≤ maxIter ∧ change κ n < acc ∧
        (∀ j, j < n → acc ≤ change κ j) ∧ k = .fin (κ (n + 1)) ∧ φ.n = N ∧ ∀ i, i < N → φ.v i = .fin (y (n + 1) i)) ∧
      (∀ (maxIter : Int) (acc : ℝ) (n : Nat), (n : Int) + 1 ≤ maxIter → maxIter ≤ 2147483647 → change κ n < acc →
        ∃ k φ, sourceIteration qr M F maxIter acc = ok (k, φ)) ∧
      ∀ acc : ℝ, 0 < acc → ∃ n0 : Int, ∀ maxIter : Int, n0 ≤ maxIter → maxIter ≤ 2147483647 →
        ∃ k φ, sourceIteration qr M F maxIter acc = ok (k, φ) := by
  obtain ⟨sol, hsol, hq⟩ := exists_sol hs
  have S : Setting N Mr A L Q sol := ⟨hsol, hM, hz, hf, hc, hA0⟩
  obtain ⟨kt, f, x, κ, hkt, he, hf0, hf1, huniq, I, hk, hx, hret⟩ := C55_fundamental hsq hF hs hM hz hf hc hA0
  have I' := power_iterates (A := A) hq S.overlap
  have same : ∀ j, ∀ i, i < N → x j i = (power N A sol j).1 i := fun j i hi => ((I j).unique (I' j) j le_rfl).2 i hi
  have x0 : ∀ j i, i < N → 0 ≤ x j i := fun j i hi => by rw [same j i hi]; exact (S.power_ok j).2.1 i hi
  have xe : ∀ j p, p < N → Emits N Q p → 0 < act N Q (x j) p := fun j p hp hem => by
    rw [act_congr (same j) p]; exact (S.power_ok j).2.2.1 p hp hem
  have xpos : ∀ j, ∃ i, i < N ∧ 0 < x j i := by
    intro j
    obtain ⟨-, p, -, hp, hem, -⟩ := S.site
    by_contra hcon
    push Not at hcon
    have := xe j p hp hem
    refine absurd this (not_lt.2 (sum_nonpos (fun q hq => ?_)))
    exact mul_nonpos_of_nonneg_of_nonpos (hf.Q_nonneg p q hp (mem_range.1 hq)) (hcon q (mem_range.1 hq))
  refine ⟨kt, f, κ, fun j i => x j i / oneNorm N (x j), hkt, he, hf0, hf1, huniq, hk, hx,
    fun j i hi => (norm_one (x0 j) (xpos j)).2.1 i hi, fun j => (norm_one (x0 j) (xpos j)).2.2, ?_, ?_, ?_, ?_, hret⟩
  · intro j p hp hem
    have hn := (norm_one (x0 j) (xpos j)).1
    have e : act N Q (fun i => x j i / oneNorm N (x j)) p = act N Q (x j) p / oneNorm N (x j) := by
      unfold act
      rw [sum_div]
      exact sum_congr rfl (fun q _ => by rw [mul_div_assoc])
    rw [e]
    exact div_pos (xe j p hp hem) hn
  · have sys := fun j i hi => (I (j + 1)).system hs (Nat.lt_succ_self j) i hi
    exact ⟨x, (I 0).k_zero, (I 0).flux_zero, fun i hi => sys 0 i hi, fun j i hi => sys (j + 1) i hi, fun j => (I (j + 1)).k_next j (Nat.lt_succ_self j),
      fun _ _ _ => rfl⟩
  · intro maxIter acc k φ h
    obtain ⟨A', x', κ', n, hF', hn, J, hc', hno, hk', hφ, hv, -⟩ := C22_returns hsq h
    have J' : Iterates N qr A x' κ' (n + 1) := J.congr (fun i j hi hj => by
      have := hF' i j hi hj
      rw [hF i j hi hj] at this
      exact (Fl.fin.inj this).symm)
    have U := (I (n + 1)).unique J'
    have hch : ∀ j, j ≤ n → change κ j = change κ' j := fun j hj => by
      unfold change
      rw [(U j (by omega)).1, (U (j + 1) (by omega)).1]
    refine ⟨n, hn, by rw [hch n le_rfl]; exact hc', fun j hj => by rw [hch j hj.le]; exact hno j hj, ?_, hφ, ?_⟩
    · rw [hk', (U (n + 1) le_rfl).1]
    · intro i hi
      have hnorm : oneNorm N (x (n + 1)) = oneNorm N (x' (n + 1)) :=
        sum_congr rfl (fun q hq => by rw [(U (n + 1) le_rfl).2 q (mem_range.1 hq)])
      rw [hv i hi, ← (U (n + 1) le_rfl).2 i hi, ← hnorm]
  · intro maxIter acc n h1 h2 h3
    classical
    have hex : ∃ n, change κ n < acc := ⟨n, h3⟩
    have := Nat.find_min' hex h3
    obtain ⟨φ, e, -⟩ := C22_converged hsq hF (maxIter := maxIter) (by omega) h2 (I (Nat.find hex + 1)) (Nat.find_spec hex)
      (fun j hj => not_lt.1 (Nat.find_min hex hj))
    exact ⟨_, φ, e⟩

theorem Converges.imp {run : Int → ℝ → Outcome State} {pick : State → Stored} {cells energies : Nat}
    {gen gen' : (Nat → ℝ) → (Nat → Nat → ℝ) → Prop} {k : ℝ} {φ : Nat → ℝ} (h : Converges run pick cells energies gen k φ)
    (hi : ∀ κ y, gen κ y → gen' κ y) : Converges run pick cells energies gen' k φ := by
  obtain ⟨κ, y, hg, h⟩ := h
  exact ⟨κ, y, hi κ y hg, h⟩

/-! ### storing -/

theorem eigenmodes_fundamental {dir : Direction} {maxIter : Int} {acc : ℝ} {l : List (Fl × Vec Fl)} :
    eigenmodes lib ⟨dir, .fundamental, maxIter, acc⟩ M F = ok l ↔
      ∃ k φ, sourceIteration (lib.qr M) M F maxIter acc = ok (k, φ) ∧ l = [(k, φ)] := by
  unfold eigenmodes Eigen.fundamental
  dsimp only
  constructor
  · intro h
    obtain ⟨r, h1, h2⟩ := bind_eq_ok.1 h
    obtain ⟨⟨k, φ⟩, h3, h4⟩ := bind_eq_ok.1 h1
    injection h4 with h4
    injection h2 with h2
    exact ⟨k, φ, h3, by rw [← h2, ← h4]; rfl⟩
  · rintro ⟨k, φ, h, rfl⟩
    rw [h, ok_bind, ok_bind]
    rfl

theorem store_one {cells energies : Nat} {k : ℝ} {φ : Vec Fl} {y : Nat → ℝ} (hn : φ.n = cells * energies)
    (hv : ∀ i, i < cells * energies → φ.v i = .fin (y i)) :
    ∃ st, store cells energies [(.fin k, φ)] = ok st ∧ Reports st cells energies k y := by
  unfold store
  rw [if_pos (by intro m hm; rw [List.mem_singleton.1 hm]; exact hn.ge)]
  exact ⟨_, rfl, rfl, rfl, fun g i hg hi => hv _ (flat_lt hi hg)⟩

theorem heatModes_one {k : Fl} {φ : Vec Fl} {y : Nat → ℝ} (hv : ∀ i, i < φ.n → φ.v i = .fin (y i)) :
    ∃ x : Vec ℝ, heatModes [(k, φ)] = ok [x] ∧ x.n = φ.n ∧ ∀ i, i < φ.n → x.v i = y i := by
  unfold heatModes finite
  dsimp only
  rw [if_pos (by intro i hi; rw [hv i hi]; exact ⟨by simp, by simp⟩)]
  exact ⟨_, rfl, rfl, fun i hi => by simp only [hv i hi, value]⟩

theorem setForward_one {cells energies : Nat} {heat : List (Vec ℝ) → Outcome (Vec ℝ)} {k : ℝ} {φ : Vec Fl} {y : Nat → ℝ} {s s' : State}
    (hn : φ.n = cells * energies) (hv : ∀ i, i < cells * energies → φ.v i = .fin (y i))
    (h : setForward cells energies heat [(.fin k, φ)] s = ok s') :
    Reports s'.forward cells energies k y ∧ s'.adjoint = s.adjoint ∧ s'.oldHeat = s.oldHeat ∧
      ∃ x : Vec ℝ, x.n = cells * energies ∧ (∀ i, i < cells * energies → x.v i = y i) ∧ heat [x] = ok s'.heat := by
  obtain ⟨st, h1, hr⟩ := store_one (k := k) hn hv
  obtain ⟨x, h2, xn, xv⟩ := heatModes_one (k := .fin k) (fun i hi => hv i (by rw [← hn]; exact hi))
  unfold setForward at h
  rw [h1, ok_bind, h2, ok_bind] at h
  obtain ⟨q, hq, e⟩ := bind_eq_ok.1 h
  injection e with e
  subst e
  exact ⟨hr, rfl, rfl, x, by rw [xn, hn], fun i hi => xv i (by rw [hn]; exact hi), hq⟩

theorem setForward_ok {cells energies : Nat} {heat : List (Vec ℝ) → Outcome (Vec ℝ)} {k : ℝ} {φ : Vec Fl} {y : Nat → ℝ} (s : State)
    (hn : φ.n = cells * energies) (hv : ∀ i, i < cells * energies → φ.v i = .fin (y i))
    (hh : ∀ x : Vec ℝ, x.n = cells * energies → (∀ i, i < cells * energies → x.v i = y i) → ∃ q, heat [x] = ok q) :
    ∃ s', setForward cells energies heat [(.fin k, φ)] s = ok s' := by
  obtain ⟨st, h1, hr⟩ := store_one (k := k) hn hv
  obtain ⟨x, h2, xn, xv⟩ := heatModes_one (k := .fin k) (fun i hi => hv i (by rw [← hn]; exact hi))
  obtain ⟨q, hq⟩ := hh x (by rw [xn, hn]) (fun i hi => xv i (by rw [hn]; exact hi))
  unfold setForward
  rw [h1, ok_bind, h2, ok_bind, hq, ok_bind]
  exact ⟨_, rfl⟩

theorem setAdjoint_one {cells energies : Nat} {k : ℝ} {φ : Vec Fl} {y : Nat → ℝ} (s : State)
    (hn : φ.n = cells * energies) (hv : ∀ i, i < cells * energies → φ.v i = .fin (y i)) :
    ∃ st, setAdjoint cells energies [(.fin k, φ)] s = ok { s with adjoint := st } ∧ Reports st cells energies k y := by
  obtain ⟨st, h1, hr⟩ := store_one (k := k) hn hv
  unfold setAdjoint
  rw [h1, ok_bind]
  exact ⟨st, rfl, hr⟩

/-! ### all modes -/

theorem eigenmodes_undefined (dir : Direction) (maxIter : Int) (acc : ℝ) :
    eigenmodes lib ⟨dir, .undefined, maxIter, acc⟩ M F = ok [] := rfl

theorem eigenmodes_all {dir : Direction} {maxIter : Int} {acc : ℝ} {l : List (Fl × Vec Fl)} :
    eigenmodes lib ⟨dir, .all, maxIter, acc⟩ M F = ok l ↔
      sortEigenmodes lib.sort M.r (lib.evals M F) (lib.evecs M F) = ok l ∧ l ≠ [] := by
  unfold eigenmodes generalizedEigenSolver
  dsimp only
  constructor
  · intro h
    obtain ⟨r, h1, h2⟩ := bind_eq_ok.1 h
    obtain ⟨l', h3, h4⟩ := bind_eq_ok.1 h1
    injection h2 with h2
    subst h2
    cases l' with
    | nil => cases h4
    | cons m l' =>
      injection h4 with h4
      subst h4
      exact ⟨h3, by simp⟩
  · rintro ⟨h, hne⟩
    cases l with
    | nil => exact absurd rfl hne
    | cons m l' =>
      rw [h, ok_bind]
      rfl

theorem modes_all (hsort : SortsDown lib.sort) {A B : Mat ℝ} (sq : Square N M F) (eM : Entries N A.m M) (eF : Entries N B.m F)
    (hfm : FindsModes lib N A B) {kt : ℝ} {f : Nat → ℝ} (hf : Eigenpair N A.m B.m kt f) (hf0 : ∀ i, i < N → 0 ≤ f i)
    (hf1 : ∑ i ∈ range N, f i = 1) (hdom : ∀ k ψ, Eigenpair N A.m B.m k ψ → |k| ≤ kt ∧ (k = kt → ∃ c, ∀ i, i < N → ψ i = c * f i))
    (dir : Direction) (maxIter : Int) (acc : ℝ) :
    (10 / 2 ^ 52 < kt → ∃ l, eigenmodes lib ⟨dir, .all, maxIter, acc⟩ M F = ok l) ∧
    ∀ l, eigenmodes lib ⟨dir, .all, maxIter, acc⟩ M F = ok l →
      (∃ x, l[0]? = some (.fin kt, x) ∧ x.n = N ∧ ∀ i, i < N → x.v i = .fin (f i)) ∧
      (∀ m ∈ l, ∃ k y, m.1 = .fin k ∧ m.2.n = N ∧ (∀ i, i < N → m.2.v i = .fin (y i)) ∧ 0 < k ∧ k ≤ kt ∧
        Eigenpair N A.m B.m k y) ∧ l.Pairwise (fun a b => ¬ Fl.lt a.1 b.1) := by
  have him : ∀ z ∈ lib.evals M F, ¬ Above z.2 := by
    intro z hz h
    rw [hfm.real M F sq eM eF z hz] at h
    exact absurd h (not_lt.2 (by positivity))
  obtain ⟨modes, cols, w, e, hnd, hcols, hperm, hnorm, -, hpw⟩ := C23_modes hsort (n := M.r) (V := lib.evecs M F) him
  rw [sq.1] at hnorm
  have hcol : ∀ i ∈ cols, ∃ k y, ((lib.evals M F).getD i (.nan, .nan)).1 = .fin k ∧ (w i).n = N ∧
      (∀ p, p < N → (w i).v p = .fin (y p)) ∧ 10 / 2 ^ 52 < k ∧ k ≤ kt ∧ Eigenpair N A.m B.m k y ∧
      ∑ p ∈ range N, |y p| = 1 ∧ 0 ≤ ∑ p ∈ range N, y p := by
    intro i hi
    obtain ⟨z, hz, ha⟩ := (hcols i).1 hi
    obtain ⟨k, hk, hp⟩ := hfm.sound M F sq eM eF i z hz ha
    obtain ⟨wn, c, hc, wv, h1, h0⟩ := hnorm i hi hp.1
    rw [hk] at ha
    have hE : Eigenpair N A.m B.m k (fun p => c * lib.evecs M F p i) := by
      obtain ⟨⟨p, hp1, hp2⟩, hp3⟩ := hp
      refine ⟨⟨p, hp1, mul_ne_zero hc hp2⟩, fun p hp => ?_⟩
      have := hp3 p hp
      have e1 : ∀ X : Nat → Nat → ℝ, act N X (fun p => c * lib.evecs M F p i) p = c * act N X (fun p => lib.evecs M F p i) p := by
        intro X
        unfold act
        rw [mul_sum]
        exact sum_congr rfl (fun q _ => by ring)
      rw [e1, e1, this]
      ring
    refine ⟨k, fun p => c * lib.evecs M F p i, ?_, wn, wv, ha, (le_abs_self _).trans (hdom k _ hE).1, hE, h1, h0⟩
    rw [List.getD_eq_getElem?_getD, hz]
    exact hk
  have hmode : ∀ m ∈ modes, ∃ i ∈ cols, m = (((lib.evals M F).getD i (.nan, .nan)).1, w i) := by
    intro m hm
    obtain ⟨i, hi, h⟩ := List.mem_map.1 (hperm.mem_iff.1 hm)
    exact ⟨i, hi, h.symm⟩
  have hex : 10 / 2 ^ 52 < kt → ∃ m ∈ modes, m.1 = .fin kt := by
    intro hk
    obtain ⟨z, hz, he⟩ := hfm.complete M F sq eM eF kt f hf
    obtain ⟨i, hi⟩ := List.getElem?_of_mem hz
    refine ⟨_, hperm.mem_iff.2 (List.mem_map.2 ⟨i, (hcols i).2 ⟨z, hi, by rw [he]; exact hk⟩, rfl⟩), ?_⟩
    dsimp only
    rw [List.getD_eq_getElem?_getD, hi]
    exact he
  refine ⟨fun hk => ⟨modes, eigenmodes_all.2 ⟨e, ?_⟩⟩, fun l hl => ?_⟩
  · rintro rfl
    obtain ⟨m, hm, -⟩ := hex hk
    cases hm
  · obtain ⟨e', hne⟩ := eigenmodes_all.1 hl
    rw [e] at e'
    cases e'
    refine ⟨?_, fun m hm => ?_, hpw⟩
    · cases modes with
      | nil => exact absurd rfl hne
      | cons m l' =>
        obtain ⟨i, hi, rfl⟩ := hmode m List.mem_cons_self
        obtain ⟨k, y, hk, wn, wv, ha, hle, hE, h1, h0⟩ := hcol i hi
        have hkt : k = kt := by
          refine le_antisymm hle ?_
          obtain ⟨m', hm', hm1⟩ := hex (ha.trans_le hle)
          rcases List.mem_cons.1 hm' with rfl | h
          · dsimp only at hm1
            rw [hk] at hm1
            exact (Fl.fin.inj hm1).ge
          · have := (List.pairwise_cons.1 hpw).1 m' h
            dsimp only at this
            rw [hk, hm1] at this
            exact not_lt.1 this
        subst hkt
        obtain ⟨c, hc⟩ := (hdom k y hE).2 rfl
        have c1 : c = 1 := by
          have a1 : ∑ p ∈ range N, |y p| = |c| := by
            rw [sum_congr rfl (fun p hp => by rw [hc p (mem_range.1 hp), abs_mul, abs_of_nonneg (hf0 p (mem_range.1 hp))]), ← mul_sum, hf1,
              mul_one]
          have a2 : ∑ p ∈ range N, y p = c := by
            rw [sum_congr rfl (fun p hp => hc p (mem_range.1 hp)), ← mul_sum, hf1, mul_one]
          rw [a2] at h0
          rw [h1, abs_of_nonneg h0] at a1
          exact a1.symm
        refine ⟨w i, by rw [hk]; rfl, wn, fun p hp => ?_⟩
        rw [wv p hp, hc p hp, c1, one_mul]
    · obtain ⟨i, hi, rfl⟩ := hmode m hm
      obtain ⟨k, y, hk, wn, wv, ha, hle, hE, -⟩ := hcol i hi
      exact ⟨k, y, hk, wn, wv, lt_trans (by positivity) ha, hle, hE⟩

theorem store_all {cells energies : Nat} {l : List (Fl × Vec Fl)} {kt : ℝ} {f : Nat → ℝ} {eqn : ℝ → (Nat → ℝ) → Prop}
    (h0 : ∃ x, l[0]? = some (.fin kt, x) ∧ x.n = cells * energies ∧ ∀ i, i < cells * energies → x.v i = .fin (f i))
    (hl : ∀ m ∈ l, ∃ k y, m.1 = .fin k ∧ m.2.n = cells * energies ∧ (∀ i, i < cells * energies → m.2.v i = .fin (y i)) ∧ 0 < k ∧ k ≤ kt ∧
      (∃ p, p < cells * energies ∧ y p ≠ 0) ∧ eqn k y) (hp : l.Pairwise (fun a b => ¬ Fl.lt a.1 b.1)) :
    ∃ st, store cells energies l = ok st ∧ ListsModes st cells energies eqn kt f := by
  unfold store
  rw [if_pos (fun m hm => by obtain ⟨k, y, -, h, -⟩ := hl m hm; exact h.ge)]
  refine ⟨_, rfl, by simp, ?_, ?_, ?_⟩
  · obtain ⟨x, hx, -, hv⟩ := h0
    refine ⟨?_, by simp [hx], fun g i hg hi => ?_⟩
    · exact (List.getElem?_eq_some_iff.1 hx).1
    · simp only [hx]
      exact hv _ (flat_lt hi hg)
  · intro m hm
    dsimp only at hm
    obtain ⟨k, y, hk, -, hv, hk0, hkt, hy, heq⟩ := hl l[m] (List.getElem_mem hm)
    refine ⟨k, y, ⟨hm, by simp [hm, hk], fun g i hg hi => ?_⟩, hk0, hkt, hy, heq⟩
    simp only [List.getElem?_eq_getElem hm]
    exact hv _ (flat_lt hi hg)
  · intro m m' a b hmm ha hb
    simp only [List.getElem?_map, Option.map_eq_some_iff] at ha hb
    obtain ⟨x, hx, ha⟩ := ha
    obtain ⟨y, hy, hb⟩ := hb
    obtain ⟨i1, rfl⟩ := List.getElem?_eq_some_iff.1 hx
    obtain ⟨i2, rfl⟩ := List.getElem?_eq_some_iff.1 hy
    have := List.pairwise_iff_getElem.1 hp m m' i1 i2 hmm
    rw [ha, hb] at this
    exact not_lt.1 this

theorem heatModes_first {l : List (Fl × Vec Fl)} {k : Fl} {φ : Vec Fl} {y : Nat → ℝ} (hl : l[0]? = some (k, φ))
    (hv : ∀ i, i < φ.n → φ.v i = .fin (y i)) :
    ∃ x : Vec ℝ, heatModes l = ok [x] ∧ x.n = φ.n ∧ ∀ i, i < φ.n → x.v i = y i := by
  cases l with
  | nil => simp at hl
  | cons m l' =>
    have : m = (k, φ) := by simpa using hl
    subst this
    exact heatModes_one (k := k) hv

end

end Verif.Solve
